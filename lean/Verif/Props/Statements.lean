import Verif.Spec.Commands
import Verif.Props.Merge
/-
C44: statements. C45: multi-dimensional arrays.
-/
namespace Verif

/-! ### Statements -/

theorem markLast_append (cs : List (Cmd α)) (c : Cmd α) : markLast (cs ++ [c]) = some (cs ++ [{ c with ends := true }]) := by
  induction cs with
  | nil => rfl
  | cons d cs ih =>
    rw [List.cons_append, markLast, ih]
    · rfl
    · simp

theorem statementLoop_body (cs : List (Cmd α)) (c : Cmd α) (hc : c.ends = true) (cur : List α) :
    (statementLoop cur (cs ++ [c])).flatten = cur ++ (cs ++ [c]).map (·.body) := by
  induction cs generalizing cur with
  | nil => simp [statementLoop, hc]
  | cons d cs ih =>
    rw [List.cons_append]
    unfold statementLoop
    split
    · simp only [List.flatten_cons, ih]; simp
    · rw [ih]; simp

theorem statementLoop_nonempty (cs : List (Cmd α)) (cur : List α) : [] ∉ statementLoop cur cs := by
  induction cs generalizing cur with
  | nil => simp [statementLoop]
  | cons d cs ih =>
    unfold statementLoop
    split
    · simp [ih]
    · exact ih _

/-- The lengths of the first `k` statements together are the positions of the ends. -/
theorem statementLoop_ends (cs : List (Cmd α)) (cur : List α) (n : Nat) :
    (∃ k, 0 < k ∧ k ≤ (statementLoop cur cs).length ∧ ((statementLoop cur cs).take k).flatten.length = cur.length + n) ↔
      ∃ i, n = i + 1 ∧ ∃ h : i < cs.length, cs[i].ends = true := by
  induction cs generalizing cur n with
  | nil =>
    constructor
    · rintro ⟨k, h1, h2, -⟩; simp [statementLoop] at h2; omega
    · rintro ⟨i, -, h, -⟩; simp at h
  | cons c cs ih =>
    unfold statementLoop
    split <;> rename_i hc
    · constructor
      · rintro ⟨k, h1, h2, h3⟩
        obtain ⟨k, rfl⟩ : ∃ j, k = j + 1 := ⟨k - 1, by omega⟩
        simp only [List.take_succ_cons, List.flatten_cons, List.length_append, List.length_cons, List.length_nil] at h3 h2
        by_cases hk : k = 0
        · subst hk
          simp at h3
          exact ⟨0, by omega, by simp, by simpa using hc⟩
        · obtain ⟨i, hi, hlt, he⟩ := (ih [] (n - 1)).mp ⟨k, by omega, by omega, by rw [List.length_nil]; omega⟩
          have : n ≠ 0 := by omega
          exact ⟨i + 1, by omega, by simp; omega, by simpa using he⟩
      · rintro ⟨i, rfl, hlt, he⟩
        cases i with
        | zero => exact ⟨1, by omega, by simp, by simp⟩
        | succ i =>
          obtain ⟨k, h1, h2, h3⟩ := (ih [] (i + 1)).mpr ⟨i, rfl, by simpa using hlt, by simpa using he⟩
          refine ⟨k + 1, by omega, by simpa using h2, ?_⟩
          simp only [List.take_succ_cons, List.flatten_cons, List.length_append, List.length_cons, List.length_nil] at h3 ⊢
          omega
    · constructor
      · intro h
        cases n with
        | zero =>
          obtain ⟨k, h1, h2, h3⟩ := h
          exfalso
          have hmem : ∃ s rest, statementLoop (cur ++ [c.body]) cs = s :: rest ∧ cur.length + 1 ≤ s.length := by
            clear ih h3
            generalize hcur : cur ++ [c.body] = cur' at *
            have hl : cur.length + 1 = cur'.length := by rw [← hcur]; simp
            rw [hl]
            clear hcur hl hc
            induction cs generalizing cur' with
            | nil => simp [statementLoop] at h2; omega
            | cons d cs ih =>
              unfold statementLoop at h2 ⊢
              split
              · exact ⟨_, _, rfl, by simp⟩
              · rename_i hd
                rw [if_neg hd] at h2
                obtain ⟨s, rest, e1, e2⟩ := ih (cur' ++ [d.body]) h2
                exact ⟨s, rest, e1, by simp at e2; omega⟩
          obtain ⟨s, rest, e1, e2⟩ := hmem
          rw [e1] at h3
          obtain ⟨k, rfl⟩ : ∃ j, k = j + 1 := ⟨k - 1, by omega⟩
          simp at h3
          omega
        | succ n =>
          have : cur.length + (n + 1) = (cur ++ [c.body]).length + n := by simp; omega
          rw [this] at h
          obtain ⟨i, rfl, hlt, he⟩ := (ih _ n).mp h
          exact ⟨i + 1, rfl, by simpa using hlt, by simpa using he⟩
      · rintro ⟨i, rfl, hlt, he⟩
        cases i with
        | zero => exact absurd (by simpa using he) hc
        | succ i =>
          have := (ih (cur ++ [c.body]) (i + 1)).mpr ⟨i, rfl, by simpa using hlt, by simpa using he⟩
          simpa [Nat.add_assoc, Nat.add_comm, Nat.add_left_comm] using this

/-- C44: the statements sent are the commands in order, none of them is empty, and they end exactly where a statement was ended
and after the last command. -/
theorem C44_statements (cs : List (Cmd α)) (hne : cs ≠ []) : ∃ ss, getStatements cs = .ok ss ∧ ss.flatten = cs.map (·.body) ∧
    [] ∉ ss ∧ ∀ n, (∃ k, 0 < k ∧ k ≤ ss.length ∧ (ss.take k).flatten.length = n) ↔ ∃ i, n = i + 1 ∧ EndsAt cs i := by
  rcases List.eq_nil_or_concat cs with rfl | ⟨cs, c, rfl⟩
  · exact absurd rfl hne
  · rw [List.concat_eq_append]
    refine ⟨statementLoop [] (cs ++ [{ c with ends := true }]), ?_, ?_, statementLoop_nonempty _ _, fun n => ?_⟩
    · unfold getStatements; rw [markLast_append]
    · rw [statementLoop_body _ _ rfl]; simp
    · have := statementLoop_ends (cs ++ [{ c with ends := true }]) [] n
      simp only [List.length_nil, Nat.zero_add] at this
      rw [this]
      constructor
      · rintro ⟨i, rfl, hlt, he⟩
        refine ⟨i, rfl, by simpa using hlt, ?_⟩
        by_cases hi : i < cs.length
        · left; simpa [List.getElem_append, hi] using he
        · right; simp at hlt ⊢; omega
      · rintro ⟨i, rfl, hlt, he⟩
        refine ⟨i, rfl, by simpa using hlt, ?_⟩
        by_cases hi : i < cs.length
        · rcases he with he | he
          · simpa [List.getElem_append, hi] using he
          · simp at he; omega
        · have : i = cs.length := by simp at hlt; omega
          subst this
          simp

/-- A pipeline without commands cannot be sent. -/
theorem C44_empty : Pipeline.write ([] : List (Cmd α)) = .error .indexError := rfl

/-- Commands as they are after reading a group of statements. -/
def rejoin : List (List α) → List (Cmd α)
  | [] => []
  | s :: ss => (match markLast (s.map fun b => { body := b }) with
    | none => []
    | some l => l) ++ rejoin ss

theorem joinStatements_eq (ss : List (List α)) (hne : [] ∉ ss) (acc : List (Cmd α)) :
    joinStatements acc ss = .ok (acc ++ rejoin ss) := by
  induction ss generalizing acc with
  | nil => simp [joinStatements, rejoin]
  | cons s ss ih =>
    simp only [List.mem_cons, not_or] at hne
    rcases List.eq_nil_or_concat s with rfl | ⟨s, b, rfl⟩
    · exact absurd rfl hne.1
    · simp only [List.concat_eq_append] at hne ⊢
      unfold joinStatements rejoin
      have h1 := markLast_append (acc ++ s.map fun b => { body := b }) ({ body := b } : Cmd α)
      have h2 := markLast_append (s.map fun b => { body := b }) ({ body := b } : Cmd α)
      rw [List.append_assoc] at h1
      simp only [List.map_append, List.map_cons, List.map_nil, h1, h2]
      rw [ih hne.2]
      simp

theorem rejoin_loop (cs : List (Cmd α)) (c : Cmd α) (hc : c.ends = true) (cur : List α) :
    rejoin (statementLoop cur (cs ++ [c])) = (cur.map fun b => { body := b }) ++ (cs ++ [c]) := by
  have hlast : ∀ (cur : List α) (d : Cmd α) rest, d.ends = true →
      rejoin ((cur ++ [d.body]) :: rest) = (cur.map fun b => { body := b }) ++ d :: rejoin rest := by
    intro cur d rest hd
    have h2 := markLast_append (cur.map fun b => { body := b }) ({ body := d.body } : Cmd α)
    simp only [rejoin, List.map_append, List.map_cons, List.map_nil, h2]
    cases d
    simp at hd
    simp [hd]
  induction cs generalizing cur with
  | nil => rw [List.nil_append, statementLoop, if_pos hc, hlast _ _ _ hc]; rfl
  | cons d cs ih =>
    rw [List.cons_append]
    unfold statementLoop
    split <;> rename_i hd
    · rw [hlast _ _ _ hd, ih]; simp
    · rw [ih]
      cases d
      simp at hd
      simp [hd]

/-- C44: reading the message gives the same commands with the same statement ends. The end of the last statement is only marked if
there are several statements, which makes no difference. -/
theorem C44_round_trip (cs : List (Cmd α)) (hne : cs ≠ []) : ∃ w cs', Pipeline.write cs = .ok w ∧ Pipeline.read w = .ok cs' ∧
    cs'.map (·.body) = cs.map (·.body) ∧ (∀ i, EndsAt cs' i ↔ EndsAt cs i) ∧ getStatements cs' = getStatements cs := by
  rcases List.eq_nil_or_concat cs with rfl | ⟨cs, c, rfl⟩
  · exact absurd rfl hne
  · rw [List.concat_eq_append]
    have hg : getStatements (cs ++ [c]) = .ok (statementLoop [] (cs ++ [{ c with ends := true }])) := by
      unfold getStatements; rw [markLast_append]
    have hre := rejoin_loop cs { c with ends := true } rfl []
    have hbody := statementLoop_body cs { c with ends := true } rfl []
    have hnon := statementLoop_nonempty (cs ++ [{ c with ends := true }]) []
    have hsame : getStatements (cs ++ [{ c with ends := true }]) = getStatements (cs ++ [c]) := by
      unfold getStatements; rw [markLast_append, markLast_append]
    unfold Pipeline.write
    generalize statementLoop [] (cs ++ [{ c with ends := true }]) = ss at hre hbody hnon hg
    rw [hg]
    simp only [List.map_nil, List.nil_append] at hre hbody
    have hends : ∀ l : List (Cmd α), l.map (·.body) = (cs ++ [c]).map (·.body) →
        (∀ i (h : i < cs.length) (h' : i < l.length), l[i].ends = cs[i].ends) → ∀ i, EndsAt l i ↔ EndsAt (cs ++ [c]) i := by
      intro l hb he i
      have hlen : l.length = cs.length + 1 := by have := congrArg List.length hb; simpa using this
      unfold EndsAt
      simp only [hlen, List.length_append, List.length_cons, List.length_nil]
      constructor
      · rintro ⟨h, h2⟩
        refine ⟨by simpa using h, ?_⟩
        by_cases hi : i < cs.length
        · rw [he i hi (by omega)] at h2
          simpa [List.getElem_append, hi] using h2
        · right; omega
      · rintro ⟨h, h2⟩
        refine ⟨by simpa using h, ?_⟩
        by_cases hi : i < cs.length
        · rw [he i hi (by omega)]
          simpa [List.getElem_append, hi] using h2
        · right; simp at h; omega
    match ss, hre, hbody, hnon with
    | [], hre, _, _ => simp [rejoin] at hre
    | [s], hre, hbody, hnon =>
      have hs : s = (cs ++ [c]).map (·.body) := by simpa using hbody
      rcases List.eq_nil_or_concat s with rfl | ⟨s, b, rfl⟩
      · simp at hs
      · simp only [List.concat_eq_append] at *
        have h2 := markLast_append (s.map fun b => { body := b }) ({ body := b } : Cmd α)
        simp only [rejoin, List.map_append, List.map_cons, List.map_nil, h2, List.append_nil] at hre
        have hcs := (List.append_inj' hre rfl).1
        refine ⟨⟨none, s ++ [b]⟩, (s ++ [b]).map fun b => { body := b }, rfl, rfl, ?_, ?_, ?_⟩
        · rw [hs]; simp
        · refine hends _ (by rw [hs]; simp) fun i h h' => ?_
          have hb' : i < (s.map fun b => ({ body := b } : Cmd α)).length := by rw [hcs]; exact h
          have h3 : (s ++ [b]).map (fun b => ({ body := b } : Cmd α)) = cs ++ [{ body := b }] := by simp [← hcs]
          simp only [h3]
          simp [h]
        · unfold getStatements
          rw [List.map_append, List.map_cons, List.map_nil, markLast_append]
          rw [hre]
          simp only [Except.ok.injEq]
          have : ∀ cs cur, (∀ d ∈ cs, d.ends = false) → statementLoop cur (cs ++ [({ c with ends := true } : Cmd α)]) = [cur ++ cs.map (·.body) ++ [c.body]] := by
            intro cs
            induction cs with
            | nil => intro cur _; simp [statementLoop]
            | cons d cs ih =>
              intro cur h
              rw [List.cons_append, statementLoop, if_neg (by simp [h d (by simp)]), ih _ (fun d hd => h d (by simp [hd]))]
              simp
          rw [this]
          · simp at hs; rw [hs.1, hs.2]; simp
          · rw [← hcs]; simp
    | s :: t :: ss, hre, hbody, hnon =>
      refine ⟨⟨some (s :: t :: ss), s⟩, cs ++ [{ c with ends := true }], by simp [bind, Except.bind, pure, Except.pure], ?_, by simp, ?_, ?_⟩
      · unfold Pipeline.read
        simp only [joinStatements_eq _ hnon, List.nil_append, hre]
        cases cs <;> rfl
      · exact hends _ (by simp) fun i h h' => by simp [h]
      · rw [hsame, hg]

example : Pipeline.write [⟨1, false⟩, ⟨2, true⟩, ⟨3, false⟩, ⟨4, false⟩] = .ok ⟨some [[1, 2], [3, 4]], [1, 2]⟩ ∧
    Pipeline.read ⟨some [[1, 2], [3, 4]], [1, 2]⟩ = .ok [⟨1, false⟩, ⟨2, true⟩, ⟨3, false⟩, ⟨4, true⟩] ∧
    Pipeline.write [⟨1, false⟩, ⟨2, false⟩] = .ok ⟨none, [1, 2]⟩ ∧
    Pipeline.read ⟨none, [1, 2]⟩ = .ok [⟨1, false⟩, ⟨2, false⟩] := by decide +kernel

theorem loop_rejoin (ss : List (List α)) (hne : [] ∉ ss) : statementLoop [] (rejoin ss) = ss := by
  have hloop : ∀ (s cur : List α) (b : α) (rest : List (Cmd α)),
      statementLoop cur ((s.map fun b => { body := b }) ++ [{ body := b, ends := true }] ++ rest) = (cur ++ s ++ [b]) :: statementLoop [] rest := by
    intro s
    induction s with
    | nil => intro cur b rest; simp [statementLoop]
    | cons x s ih =>
      intro cur b rest
      simp only [List.map_cons, List.cons_append]
      rw [statementLoop]
      simp only [Bool.false_eq_true, if_false]
      rw [ih]
      simp
  induction ss with
  | nil => rfl
  | cons s ss ih =>
    simp only [List.mem_cons, not_or] at hne
    rcases List.eq_nil_or_concat s with rfl | ⟨s, b, rfl⟩
    · exact absurd rfl hne.1
    · simp only [List.concat_eq_append] at hne ⊢
      have h2 := markLast_append (s.map fun b => { body := b }) ({ body := b } : Cmd α)
      simp only [rejoin, List.map_append, List.map_cons, List.map_nil, h2]
      rw [hloop, ih hne.2]
      simp

theorem markLast_rejoin (ss : List (List α)) (hne : [] ∉ ss) (h0 : ss ≠ []) : markLast (rejoin ss) = some (rejoin ss) := by
  have : ∃ cs c, rejoin ss = cs ++ [c] ∧ c.ends = true := by
    induction ss with
    | nil => exact absurd rfl h0
    | cons s ss ih =>
      simp only [List.mem_cons, not_or] at hne
      rcases List.eq_nil_or_concat s with rfl | ⟨s, b, rfl⟩
      · exact absurd rfl hne.1
      · simp only [List.concat_eq_append] at hne ⊢
        have h2 := markLast_append (s.map fun b => { body := b }) ({ body := b } : Cmd α)
        simp only [rejoin, List.map_append, List.map_cons, List.map_nil, h2]
        by_cases hs : ss = []
        · subst hs
          exact ⟨_, _, by simp [rejoin]; exact ⟨rfl, rfl⟩, rfl⟩
        · obtain ⟨cs, c, h3, h4⟩ := ih hne.2 hs
          exact ⟨_, c, by rw [h3, ← List.append_assoc], h4⟩
  obtain ⟨cs, c, h1, h2⟩ := this
  rw [h1, markLast_append]
  cases c
  simp at h2
  simp [h2]

/-- C44: from the calls to the statements: commands added with `add_statement` after every group, the last one being optional, are
sent as these groups. -/
theorem C44_build {protocol : PyStr} {version : List Nat} (hv : Dotted protocol version) (groups : List (List PyStr))
    (last : List PyStr) (hne : [] ∉ groups) (hl : last ≠ []) :
    getStatements ((build protocol ((groups.flatMap fun g => (g.map fun c => .add c false none) ++ [.statement]) ++
      last.map fun c => .add c false none)).map fun c => (⟨c.cmd, c.endOfStatement⟩ : Cmd PyStr)) = .ok (groups ++ [last]) := by
  obtain ⟨b2, h2, -⟩ := C24_numeric_order protocol _ version _ hv dotted22
  obtain ⟨b3, h3, -⟩ := C24_numeric_order protocol _ version _ hv dotted23
  have hadd : ∀ (g : List PyStr) (cs : List Command),
      ((g.map fun c => BuildOp.add c false none).foldl (fun cs op => (op.run protocol cs).2) cs).map (fun c => (⟨c.cmd, c.endOfStatement⟩ : Cmd PyStr)) =
        (cs.map fun c => ⟨c.cmd, c.endOfStatement⟩) ++ g.map fun b => { body := b } := by
    intro g
    induction g with
    | nil => simp
    | cons c g ih =>
      intro cs
      rw [List.map_cons, List.foldl_cons, ih]
      simp only [BuildOp.run, addCmdlet, h2, h3]
      simp
  have hstmt : ∀ (cs : List Command), ((addStatement cs).2.map fun c => (⟨c.cmd, c.endOfStatement⟩ : Cmd PyStr)) =
      (match markLast (cs.map fun c => (⟨c.cmd, c.endOfStatement⟩ : Cmd PyStr)) with | none => [] | some l => l) := by
    intro cs
    rcases List.eq_nil_or_concat cs with rfl | ⟨cs, c, rfl⟩
    · rfl
    · simp only [List.concat_eq_append, List.map_append, List.map_cons, List.map_nil]
      rw [markLast_append]
      simp [addStatement, onLast]
  have hgroups : ∀ (gs : List (List PyStr)) (cs : List Command), [] ∉ gs →
      ((gs.flatMap fun g => (g.map fun c => .add c false none) ++ [.statement]).foldl (fun cs op => (BuildOp.run protocol op cs).2) cs).map (fun c => (⟨c.cmd, c.endOfStatement⟩ : Cmd PyStr)) =
        (cs.map fun c => ⟨c.cmd, c.endOfStatement⟩) ++ rejoin gs := by
    intro gs
    induction gs with
    | nil => simp [rejoin]
    | cons g gs ih =>
      intro cs hn
      simp only [List.mem_cons, not_or] at hn
      rw [List.flatMap_cons, List.foldl_append, ih _ hn.2, List.foldl_append, List.foldl_cons, List.foldl_nil]
      show List.map _ (addStatement _).2 ++ _ = _
      rw [hstmt, hadd]
      rcases List.eq_nil_or_concat g with rfl | ⟨g, b, rfl⟩
      · exact absurd rfl hn.1
      · simp only [List.concat_eq_append]
        have e1 := markLast_append ((cs.map fun c => (⟨c.cmd, c.endOfStatement⟩ : Cmd PyStr)) ++ g.map fun b => { body := b }) { body := b }
        have e2 := markLast_append (g.map fun b => ({ body := b } : Cmd PyStr)) { body := b }
        rw [List.append_assoc] at e1
        simp only [rejoin, List.map_append, List.map_cons, List.map_nil, e1, e2]
        simp
  unfold build
  rw [List.foldl_append, hadd, hgroups _ _ hne]
  rcases List.eq_nil_or_concat last with rfl | ⟨g, b, rfl⟩
  · exact absurd rfl hl
  · simp only [List.concat_eq_append, List.map_nil, List.nil_append]
    have e1 := markLast_append (rejoin groups ++ g.map fun b => ({ body := b } : Cmd PyStr)) { body := b }
    have e2 := markLast_append (g.map fun b => ({ body := b } : Cmd PyStr)) { body := b }
    have hrej : rejoin groups ++ (g.map fun b => ({ body := b } : Cmd PyStr)) ++ [{ body := b, ends := true }] = rejoin (groups ++ [g ++ [b]]) := by
      have : ∀ gs : List (List PyStr), rejoin (gs ++ [g ++ [b]]) = rejoin gs ++ ((g.map fun b => ({ body := b } : Cmd PyStr)) ++ [{ body := b, ends := true }]) := by
        intro gs
        induction gs with
        | nil => simp only [rejoin, List.nil_append, List.map_append, List.map_cons, List.map_nil, e2]; simp
        | cons x gs ih => rw [List.cons_append, rejoin, ih, rejoin, List.append_assoc]
      rw [this, List.append_assoc]
    unfold getStatements
    rw [List.append_assoc] at e1
    simp only [List.map_append, List.map_cons, List.map_nil, e1]
    rw [hrej, loop_rejoin _ (by simp [hne])]

example : [] ∉ ([["Get-Item".toList, "Out-Null".toList], ["Get-Date".toList]] : List (List PyStr)) ∧ Dotted "2.3".toList [2, 3] :=
  ⟨by decide, dotted23⟩

/-! ### Arrays -/

theorem entriesList_eq (l : List (Arr α)) : Arr.entries.entriesList l = l.flatMap Arr.entries := by
  induction l with
  | nil => rfl
  | cons a l ih => rw [Arr.entries.entriesList, ih, List.flatMap_cons]

/-- The parts of an array at a depth. -/
def slices : Nat → Arr α → List (Arr α)
  | 0, a => [a]
  | _ + 1, .elem _ => []
  | j + 1, .list l => l.flatMap (slices j)

def Arr.children : Arr α → List (Arr α)
  | .elem _ => []
  | .list l => l

theorem slices_succ (j : Nat) : ∀ a : Arr α, slices (j + 1) a = (slices j a).flatMap Arr.children := by
  induction j with
  | zero =>
    intro a
    cases a with
    | elem a => rfl
    | list l =>
      show l.flatMap (slices 0) = _
      simp [slices, Arr.children]
  | succ j ih =>
    intro a
    cases a with
    | elem a => rfl
    | list l =>
      show l.flatMap (slices (j + 1)) = (l.flatMap (slices j)).flatMap Arr.children
      rw [List.flatMap_assoc]
      exact congrArg (fun f => List.flatMap f l) (funext ih)

theorem slices_rect : ∀ (dims : List Nat) (a : Arr α), Rect dims a → slices dims.length a = a.entries.map .elem := by
  intro dims
  induction dims with
  | nil =>
    intro a h
    cases a with
    | elem a => rfl
    | list l => simp [Rect] at h
  | cons n dims ih =>
    intro a h
    cases a with
    | elem a => simp [Rect] at h
    | list l =>
      simp only [Rect] at h
      show l.flatMap (slices dims.length) = (Arr.entries.entriesList l).map .elem
      rw [entriesList_eq, List.map_flatMap]
      have : ∀ l : List (Arr α), (∀ a ∈ l, Rect dims a) → l.flatMap (slices dims.length) = l.flatMap fun a => a.entries.map .elem := by
        intro l
        induction l with
        | nil => simp
        | cons a l ihl => intro hl; simp only [List.flatMap_cons]; rw [ih a (hl a (by simp)), ihl fun a ha => hl a (by simp [ha])]
      exact this l h.2

/-- The parts at a depth are lists of the length of that dimension. -/
theorem slices_length : ∀ (pre : List Nat) (n : Nat) (post : List Nat) (a : Arr α), Rect (pre ++ n :: post) a → 0 ∉ pre →
    slices pre.length a ≠ [] ∧ ∀ x ∈ slices pre.length a, ∃ l, x = .list l ∧ l.length = n := by
  intro pre
  induction pre with
  | nil =>
    intro n post a h _
    cases a with
    | elem a => simp [Rect] at h
    | list l => simp [slices]; simpa [Rect] using h.1
  | cons m pre ih =>
    intro n post a h h0
    simp only [List.mem_cons, not_or] at h0
    cases a with
    | elem a => simp [Rect] at h
    | list l =>
      simp only [List.cons_append, Rect] at h
      constructor
      · cases l with
        | nil => simp at h; exact absurd h h0.1
        | cons b l =>
          have := (ih n post b (h.2 b (by simp)) h0.2).1
          simp [slices, this]
      · intro x hx
        simp only [List.length_cons, slices, List.mem_flatMap] at hx
        obtain ⟨b, hb, hx⟩ := hx
        exact (ih n post b (h.2 b hb) h0.2).2 x hx

theorem groups_children {n : Nat} (hn : n ≠ 0) (xs : List (Arr α)) (hne : xs ≠ []) (h : ∀ x ∈ xs, ∃ l, x = .list l ∧ l.length = n) :
    groups n (xs.flatMap Arr.children) = .ok xs := by
  induction xs with
  | nil => exact absurd rfl hne
  | cons x xs ih =>
    obtain ⟨l, rfl, hl⟩ := h x (by simp)
    have hlen : ∀ ys : List (Arr α), ys ≠ [] → (∀ y ∈ ys, ∃ l, y = .list l ∧ l.length = n) → 0 < (ys.flatMap Arr.children).length := by
      intro ys hy hall
      cases ys with
      | nil => exact absurd rfl hy
      | cons y ys =>
        obtain ⟨l, rfl, hl⟩ := hall y (by simp)
        simp [Arr.children]; omega
    rw [List.flatMap_cons]
    show groups n (l ++ _) = _
    unfold groups
    rw [dif_neg hn, dif_neg (by simp; omega)]
    by_cases hx : xs = []
    · subst hx
      simp [hl]
    · have h0 := hlen xs hx (fun y hy => h y (by simp [hy]))
      rw [if_neg (by simp only [List.length_append]; omega)]
      rw [← hl, List.take_left, List.drop_left, hl, ih hx (fun y hy => h y (by simp [hy]))]
      rfl

theorem build_slices (d : Nat) (l : List (Arr α)) : ∀ (rest tail : List Nat), Rect (d :: rest.reverse ++ tail) (.list l) → 0 ∉ rest → d ≠ 0 →
    buildArray (slices (rest.length + 1) (.list l)) (rest ++ [d]) = .ok l := by
  intro rest
  induction rest with
  | nil =>
    intro tail h _ hd
    simp only [List.reverse_nil, List.cons_append, List.nil_append, Rect] at h
    have h1 : slices 1 (.list l) = ([.list l] : List (Arr α)).flatMap Arr.children := slices_succ 0 _
    have h2 := groups_children hd [.list l] (by simp) (by simpa using h.1)
    simp only [List.length_nil, Nat.zero_add, List.nil_append, buildArray, h1, h2]
    rfl
  | cons x rest ih =>
    intro tail h h0 hd
    simp only [List.mem_cons, not_or] at h0
    rw [List.reverse_cons, ← List.cons_append, List.append_assoc] at h
    have hs := slices_length (d :: rest.reverse) x tail (.list l) (by simpa using h) (by
      simp only [List.mem_cons, List.mem_reverse, not_or]; exact ⟨fun e => hd e.symm, h0.2⟩)
    have hg := groups_children (fun e => h0.1 e.symm) _ hs.1 hs.2
    simp only [List.length_cons, List.length_reverse] at hg
    rw [← slices_succ] at hg
    have ih' := ih (x :: tail) (by simpa using h) h0.2 hd
    cases rest with
    | nil =>
      simp only [List.length_cons, List.length_nil, List.cons_append, List.nil_append, buildArray]
      simp only [List.length_nil] at hg
      rw [hg]
      have : slices (0 + 1) (.list l) = l := by rw [slices_succ]; simp [slices, Arr.children]
      rw [this]
    | cons y rest =>
      simp only [List.length_cons, List.cons_append] at hg ih' ⊢
      cases hr : rest ++ [d] with
      | nil => simp at hr
      | cons z zs =>
        rw [hr] at ih'
        unfold buildArray
        rw [hg]
        exact ih'

theorem counts_rect : ∀ (dims : List Nat) (a : Arr α), Rect dims a → 0 ∉ dims → a.counts = .ok dims := by
  intro dims
  induction dims with
  | nil =>
    intro a h _
    cases a with
    | elem a => rfl
    | list l => simp [Rect] at h
  | cons n dims ih =>
    intro a h h0
    simp only [List.mem_cons, not_or] at h0
    cases a with
    | elem a => simp [Rect] at h
    | list l =>
      simp only [Rect] at h
      cases l with
      | nil => simp at h; exact absurd h h0.1
      | cons b l =>
        rw [Arr.counts, ih b (h.2 b (by simp)) h0.2]
        simp at h
        simp [bind, Except.bind, pure, Except.pure, h.1]

/-- C45: a rectangular array of any rank without empty dimensions is sent as its elements and dimensions, and the reader gets the
same array from them. -/
theorem C45_round_trip (l : List (Arr α)) (d : Nat) (dims : List Nat) (h : Rect (d :: dims) (.list l)) (h0 : 0 ∉ d :: dims) :
    ∃ w, ArrayObj.write { array := some l } = .ok w ∧ w.1 = (Arr.list l).entries ∧ w.2 = d :: dims ∧
      (ArrayObj.read w).getArray.map (·.1) = .ok l := by
  refine ⟨((Arr.list l).entries, d :: dims), ?_, rfl, rfl, ?_⟩
  · simp [ArrayObj.write, ArrayObj.getMae, ArrayObj.getMal, ArrayObj.getArray, bind, Except.bind, counts_rect _ _ h h0, pure, Except.pure]
  · simp only [List.mem_cons, not_or] at h0
    have := build_slices d l dims.reverse [] (by simpa using h) (by simpa using h0.2) (fun e => h0.1 e.symm)
    have hs := slices_rect (d :: dims) (.list l) h
    simp only [List.length_cons] at hs
    simp only [List.length_reverse, hs] at this
    simp only [ArrayObj.read, ArrayObj.getArray, List.reverse_cons]
    rw [this]
    rfl

/-- C45, the limits of the claim: an array with an empty dimension cannot be sent, and one that was received cannot be sent again
before its `array` was read. -/
theorem C45_empty (rest : List (Arr α)) : ArrayObj.write ({ array := some [] } : ArrayObj α) = .error .indexError ∧
    ArrayObj.write ({ array := some (.list [] :: rest) } : ArrayObj α) = .error .indexError := ⟨rfl, rfl⟩

theorem C45_resend (w : List α × List Nat) : (ArrayObj.read w).write = .error .typeError := rfl

/-- A 2×1×3 array. -/
example : Rect [2, 1, 3] (.list [.list [.list [.elem 1, .elem 2, .elem 3]], .list [.list [.elem 4, .elem 5, .elem 6]]] : Arr Nat) ∧
    0 ∉ [2, 1, 3] := by simp [Rect]

end Verif
