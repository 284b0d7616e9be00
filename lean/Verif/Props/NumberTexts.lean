import Verif.Props.WholeNumber
import Verif.Props.TransportInvoke
import Verif.Model.Shell
import Verif.Model.Deserializer
import Verif.Lemmas.Numbers
/-
C106: exit codes and the whole numbers of CLIXML.
-/
namespace Verif

/-- The first exit code in an answer to a receive, if there is one: its text. -/
def exitCodeText (body : Elem) : Option (Option PyStr) :=
  (elemsAt ["rsp:ReceiveResponse".toList, "rsp:CommandState".toList, "rsp:ExitCode".toList] body).head?.map Elem.text

/-- C106: the exit code of an answer is the number that its text says. Without an element there is none, an element without a text says 0, and any
other text raises. -/
theorem C106_exit (body : Elem) : (exitCodeText body = none → receiveCode body = .ok none) ∧
    (exitCodeText body = some none ∨ exitCodeText body = some (some []) → receiveCode body = .ok (some 0)) ∧
    ∀ t, exitCodeText body = some (some t) → t ≠ [] →
      (∀ code, receiveCode body = .ok code ↔ ∃ n, code = some n ∧ WholeNumber t n) ∧
      ((¬ ∃ n, WholeNumber t n) → receiveCode body = .error .valueError) := by
  unfold exitCodeText receiveCode
  rw [find_eq]
  cases h : (elemsAt ["rsp:ReceiveResponse".toList, "rsp:CommandState".toList, "rsp:ExitCode".toList] body).head? with
  | none => exact ⟨fun _ => rfl, (fun h => by rcases h with h | h <;> cases h), fun t ht => (by cases ht)⟩
  | some e =>
    have zero : (pyInt ['0']).map some = .ok (some 0) := by decide +kernel
    refine ⟨fun h => (by cases h), fun h => ?_, fun t ht hne => ?_⟩
    · simp only [Option.map_some, Option.some.injEq] at h
      dsimp only
      rcases h with h | h <;> rw [h] <;> exact zero
    · simp only [Option.map_some, Option.some.injEq] at ht
      dsimp only
      have ho : orZero e.text = t := by
        rw [ht]
        cases t with
        | nil => exact absurd rfl hne
        | cons c cs => rfl
      rw [ho]
      refine ⟨fun code => ⟨fun hc => ?_, ?_⟩, fun hn => by rw [(C106_int t).2 hn]; rfl⟩
      · cases hp : pyInt t with
        | error e => rw [hp] at hc; cases hc
        | ok n => rw [hp] at hc; cases hc; exact ⟨n, rfl, ((C106_int t).1 n).1 hp⟩
      · rintro ⟨n, rfl, hn⟩
        rw [((C106_int t).1 n).2 hn]; rfl

/-- An answer with an exit code. -/
def exitAnswer (t : PyStr) : Elem := .node "s:Body".toList [] none [.node "rsp:ReceiveResponse".toList [] none [.node "rsp:CommandState".toList [] none
  [.node "rsp:ExitCode".toList [] (some t) []]]]

example : exitCodeText (exitAnswer "-1".toList) = some (some "-1".toList) ∧ receiveCode (exitAnswer "-1".toList) = .ok (some (-1)) ∧
    receiveCode (exitAnswer "0x1".toList) = .error .valueError := by
  decide +kernel

/-- The elements of whole numbers and the numbers of their types ([MS-PSRP] 2.2.5.1). -/
def numberTypes : List (Tag × Int × Int) :=
  [(.By, 0, 255), (.SB, -128, 127), (.U16, 0, 65535), (.I16, -32768, 32767), (.U32, 0, 4294967295), (.I32, -2147483648, 2147483647),
    (.U64, 0, 18446744073709551615), (.I64, -9223372036854775808, 9223372036854775807)]

/-- C106, partial: the element of a whole number is read as the number that its text says, whatever its type. Other texts raise `ValueError`, an element without
a text `TypeError`. Missing: the ranges of the types (`C106_range_false`). -/
theorem C106_clixml_partial {tag : Tag} {low high : Int} (h : (tag, low, high) ∈ numberTypes) (refId : Option PyStr) (st : DeState) :
    unpackPrim tag refId none st = some (.error .typeError) ∧ ∀ t : PyStr,
      (∀ v, unpackPrim tag refId (some t) st = some (.ok v) ↔ ∃ n : Int, v = .sc (.int n) ∧ WholeNumber t n) ∧
      ((¬ ∃ n, WholeNumber t n) → unpackPrim tag refId (some t) st = some (.error .valueError)) := by
  have hu : ∀ text, unpackPrim tag refId text st = some (intOf text) := by
    intro text
    simp only [numberTypes, List.mem_cons, List.not_mem_nil, or_false, Prod.mk.injEq] at h
    rcases h with ⟨rfl, -⟩ | ⟨rfl, -⟩ | ⟨rfl, -⟩ | ⟨rfl, -⟩ | ⟨rfl, -⟩ | ⟨rfl, -⟩ | ⟨rfl, -⟩ | ⟨rfl, -⟩ <;> rfl
  refine ⟨hu none, fun t => ⟨fun v => ?_, fun hn => ?_⟩⟩
  · rw [hu]
    simp only [intOf, bind, Except.bind, pure, Except.pure]
    constructor
    · intro hv
      cases hp : pyInt t with
      | error e => rw [hp] at hv; cases hv
      | ok n => rw [hp] at hv; cases hv; exact ⟨n, rfl, ((C106_int t).1 n).1 hp⟩
    · rintro ⟨n, rfl, hn⟩
      rw [((C106_int t).1 n).2 hn]
  · rw [hu]
    simp only [intOf, bind, Except.bind, (C106_int t).2 hn]

/-- C106 is false of the range of a type: every number is accepted in every element, also those that are no numbers of its type. -/
theorem C106_range_false {tag : Tag} {low high : Int} (h : (tag, low, high) ∈ numberTypes) (refId : Option PyStr) (st : DeState) (n : Int) :
    ∃ t, WholeNumber t n ∧ unpackPrim tag refId (some t) st = some (.ok (.sc (.int n))) :=
  have hn : WholeNumber (pyStrInt n) n := ((C106_int _).1 n).1 (pyInt_pyStrInt n)
  ⟨pyStrInt n, hn, (((C106_clixml_partial h refId st).2 _).1 _).2 ⟨n, rfl, hn⟩⟩

example : (Tag.By, (0 : Int), (255 : Int)) ∈ numberTypes ∧ ¬ (0 ≤ (256 : Int) ∧ (256 : Int) ≤ 255) := by decide

end Verif
