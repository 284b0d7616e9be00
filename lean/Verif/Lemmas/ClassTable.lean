import Verif.Spec.Classes
import Verif.Lemmas.SerializerNest
/-
Facts about the table of classes that are checked by evaluation.
-/
namespace Verif

def stringArrayTypes : List PyStr := ["System.String[]".toList, "System.Array".toList, "System.Object".toList]
def primitiveDictTypes : List PyStr := ["System.Management.Automation.PSPrimitiveDictionary".toList,
  "System.Collections.Hashtable".toList, "System.Object".toList]
def stringCollectionTypes : List PyStr := [("System.Collections.ObjectModel.Collection`1[[System.String, mscorlib, " ++
  "Version=4.0.0.0, Culture=neutral, PublicKeyToken=b77a5c561934e089]]").toList, "System.Object".toList]
def typeNameTypes : List PyStr := [("System.Collections.ObjectModel.ReadOnlyCollection`1[[System.Management.Automation.PSTypeName, " ++
  "System.Management.Automation, Version=3.0.0.0, Culture=neutral, PublicKeyToken=31bf3856ad364e35]]").toList]

/-- The type names of containers. -/
def otherTypes : List (List PyStr) := [listTypes, dictTypes, queueTypes, stackTypes, boundTypes, unboundTypes, iterationTypes,
  collectionTypes, stringArrayTypes, primitiveDictTypes, stringCollectionTypes, typeNameTypes]

/-- Classes that have the type names of another class. -/
def sameTypes : List String := ["InformationRecord", "ErrorRecordMessage"]

/-- All lists of type names in the table and those of the containers. -/
def knownTypes : List (List PyStr) := otherTypes ++
  ((classes.filter (fun e => !sameTypes.contains e.1)).map (fun e => e.2.types)).filter (fun ts => !ts.isEmpty)

def Known (ts : List PyStr) : Prop := ts ∈ knownTypes

/-- A number for a string, to tell the first type names apart quickly. -/
def strKey (s : PyStr) : Nat := s.foldl (fun a c => (a * 31 + c.toNat) % 1000003) 7
def headKey (ts : List PyStr) : Nat := strKey (ts.headD [])

theorem known_keys : knownTypes.map headKey = [608743, 769823, 283675, 96524, 423955, 972293, 724737, 747572, 795171, 545168,
    523583, 475064, 60711, 312661, 301928, 1626, 978200, 503370, 620029, 672483, 856518, 143558, 516247, 282819, 633519, 270768, 845135,
    921555, 587988, 891319, 943415] := by decide +kernel

theorem eq_of_key {α : Type} {l : List α} {key : α → Nat} (h : (l.map key).Nodup) {a b : α} (ha : a ∈ l) (hb : b ∈ l)
    (hk : key a = key b) : a = b := by
  induction l with
  | nil => simp at ha
  | cons x xs ih =>
    simp only [List.map_cons, List.nodup_cons, List.mem_map, not_exists, not_and] at h
    rcases List.mem_cons.mp ha with ha | ha <;> rcases List.mem_cons.mp hb with hb | hb
    · rw [ha, hb]
    · exact absurd (by rw [← hk, ha]) (h.1 b hb)
    · exact absurd (by rw [hk, hb]) (h.1 a ha)
    · exact ih h.2 ha hb

def asciiStr (s : PyStr) : Bool := s.all (fun c => Nat.ble 32 c.toNat && Nat.ble c.toNat 126)

theorem asciiStr_safe {s : PyStr} (h : asciiStr s = true) : ∀ c ∈ s, XmlSafe c := by
  intro c hc
  have := List.all_eq_true.mp h c hc
  simp only [Bool.and_eq_true, Nat.ble_eq] at this
  exact xmlSafe_ascii this.1 (by omega)

theorem known_ascii : knownTypes.all (fun ts => !ts.isEmpty && ts.all asciiStr) = true := by decide +kernel

theorem known_ok : OkTypes Known := by
  constructor
  · intro a b ha hb h
    refine eq_of_key (l := knownTypes) (key := headKey) (by rw [known_keys]; decide) ha hb ?_
    unfold headKey
    rw [List.headD_eq_head?_getD, List.headD_eq_head?_getD, h]
  · intro a ha
    have := List.all_eq_true.mp known_ascii a ha
    simp only [Bool.and_eq_true, Bool.not_eq_true', List.isEmpty_eq_false_iff] at this
    exact ⟨this.1, fun t ht => asciiStr_safe (List.all_eq_true.mp this.2 t ht)⟩

theorem known_other {t : List PyStr} (h : t ∈ otherTypes) : Known t := List.mem_append_left _ h

theorem known_container (t : List PyStr) (h : okContainer t) : Known t := by
  apply known_other
  unfold otherTypes
  rcases h with rfl | rfl | rfl | rfl <;> simp

/-- The type names that a property has for its container. -/
def metaTypes : Meta → List (List PyStr)
  | .plain .. => []
  | .list _ _ _ _ _ ts => [ts]
  | .dict _ _ _ _ _ ts => [ts]

def ClassDef.fields (c : ClassDef) : List Field := c.sets ++ c.extended ++ c.adapted

def invTypes : List (List PyStr) := [boundTypes, unboundTypes, iterationTypes, collectionTypes]

set_option maxRecDepth 10000 in
theorem table_containers : classes.flatMap (fun e => e.2.fields.flatMap (fun f => metaTypes f.write)) =
    [dictTypes] ++ invTypes ++ invTypes ++ [typeNameTypes, dictTypes, stringCollectionTypes, primitiveDictTypes, dictTypes, stringArrayTypes, listTypes,
      listTypes] ++ invTypes ++ invTypes ++ invTypes ++ invTypes ++ [listTypes, listTypes] := rfl

theorem table_names : (classes.flatMap (fun e => e.2.fields)).all (fun f => match f.write.name with
    | none => true | some n => asciiStr n) = true := by decide +kernel

def textFine : TextKind → Bool
  | .attr none => true
  | .attr (some s) => asciiStr s
  | .enum m => m.all (fun e => asciiStr e.2)
  | .flags _ => true

theorem table_texts : classes.all (fun e => textFine e.2.text) = true := by decide +kernel

theorem table_flags : classes.filterMap (fun e => match e.2.text with | .flags f => some f | _ => none) =
    [remoteStreamText, commandTypeText] := rfl

theorem table_same : (classes.filter (fun e => sameTypes.contains e.1)).map (fun e => e.2.types) =
    [errorRecord.types, (informationalRecord []).types] := rfl

theorem findClass_mem {name : PyStr} {c : ClassDef} (h : findClass name = some c) : ∃ e ∈ classes, e.2 = c := by
  unfold findClass at h
  cases hf : classes.find? (fun e => e.1.toList == name) with
  | none => simp [hf] at h
  | some e =>
    simp only [hf, Option.map_some, Option.some.injEq] at h
    exact ⟨e, List.mem_of_find?_eq_some hf, h⟩

/-- The flag texts of the table. -/
theorem class_flags {name : PyStr} {c : ClassDef} (h : findClass name = some c) {f : Option Nat → PyStr}
    (hf : c.text = .flags f) : f = remoteStreamText ∨ f = commandTypeText := by
  obtain ⟨e, he, rfl⟩ := findClass_mem h
  have : f ∈ classes.filterMap (fun e => match e.2.text with | .flags f => some f | _ => none) :=
    List.mem_filterMap.mpr ⟨e, he, by rw [hf]⟩
  rw [table_flags] at this
  simpa using this

/-- The tag of a property and that of the entries of a list. -/
def tagFine : Meta → Bool
  | .plain t _ _ => packable t || t == .star
  | .list _ t _ _ (.plain t' _ _) _ => packable t && (packable t' || t' == .star)
  | .list .. => false
  | .dict t _ _ _ _ _ => packable t

theorem table_tags : (classes.flatMap (fun e => e.2.fields)).all (fun f => tagFine f.write) = true := by decide +kernel

/-- What is needed of the metadata of a property. -/
def MetaFine (m : Meta) : Prop :=
  (∀ n, m.name = some n → ∀ c ∈ n, XmlSafe c) ∧ (∀ ts ∈ metaTypes m, Known ts) ∧ tagFine m = true

theorem class_meta {name : PyStr} {c : ClassDef} (h : findClass name = some c) {f : Field} (hf : f ∈ c.fields) :
    MetaFine f.write := by
  obtain ⟨e, he, rfl⟩ := findClass_mem h
  refine ⟨?_, ?_, List.all_eq_true.mp table_tags f (List.mem_flatMap.mpr ⟨e, he, hf⟩)⟩
  · intro n hn
    have := List.all_eq_true.mp table_names f (List.mem_flatMap.mpr ⟨e, he, hf⟩)
    rw [hn] at this
    exact asciiStr_safe this
  · intro ts hts
    have : ts ∈ classes.flatMap (fun e => e.2.fields.flatMap (fun f => metaTypes f.write)) :=
      List.mem_flatMap.mpr ⟨e, he, List.mem_flatMap.mpr ⟨f, hf, hts⟩⟩
    rw [table_containers] at this
    apply known_other
    unfold otherTypes
    simp only [invTypes, List.cons_append, List.nil_append, List.mem_cons, List.not_mem_nil, or_false] at this ⊢
    grind

theorem class_types {name : PyStr} {c : ClassDef} (h : findClass name = some c) (hne : c.types ≠ []) : Known c.types := by
  obtain ⟨e, he, rfl⟩ := findClass_mem h
  have main : ∀ e ∈ classes, sameTypes.contains e.1 = false → e.2.types ≠ [] → Known e.2.types := by
    intro e he hs hne
    apply List.mem_append_right
    refine List.mem_filter.mpr ⟨List.mem_map.mpr ⟨e, List.mem_filter.mpr ⟨he, by simp only [hs]; rfl⟩, rfl⟩, ?_⟩
    cases h : e.2.types with
    | nil => exact absurd h hne
    | cons => rfl
  cases hs : sameTypes.contains e.1 with
  | false => exact main e he hs hne
  | true =>
    have : e.2.types ∈ (classes.filter (fun e => sameTypes.contains e.1)).map (fun e => e.2.types) :=
      List.mem_map.mpr ⟨e, List.mem_filter.mpr ⟨he, hs⟩, rfl⟩
    rw [table_same] at this
    have h1 : ("ErrorRecord", errorRecord) ∈ classes := by simp only [classes, List.mem_cons, true_or, or_true]
    have h2 : ("InformationalRecord", informationalRecord []) ∈ classes := by
      simp only [classes, List.mem_cons, true_or, or_true]
    simp only [List.mem_cons, List.not_mem_nil, or_false] at this
    rcases this with h | h <;> rw [h]
    · exact main _ h1 (by decide) (by decide)
    · exact main _ h2 (by decide) (by decide)

theorem class_text {name : PyStr} {c : ClassDef} (h : findClass name = some c) : textFine c.text = true := by
  obtain ⟨e, he, rfl⟩ := findClass_mem h
  exact List.all_eq_true.mp table_texts e he

end Verif
