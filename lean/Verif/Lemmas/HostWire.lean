import Verif.Lemmas.Docs
import Verif.Lemmas.PoolDocs
import Verif.Lemmas.ServerRead
import Verif.Props.Host
import Verif.Props.PoolDocs
import Verif.Spec.HostWire
/-
Host calls as documents, for C98.
-/
namespace Verif
open Docs

/-! ### reading a call -/

theorem unpack_class {kind : MsgKind} {text : PyStr} {bytes : Bytes} {x : Xml} {st : DeState} {o : Nat} {ts : List PyStr}
    {t : Option PyStr} {a b c : List (Meta × PyVal)}
    (hk : kind ≠ .pipelineOutput ∧ kind ≠ .pipelineInput ∧ kind ≠ .publicKeyRequest)
    (hm : MessageText kind text bytes) (hx : xmlOfText text = some x) (hd : deser (.cls kind.className) x .clear = .ok (.typed o ts t a b c, st)) :
    ∃ u, unpackMessage bytes = .ok u ∧ u.kind = kind ∧ u.data = some (.typed o ts t a b c) := by
  obtain ⟨d, rpid, pid, body, h1, h2⟩ := unpack_text hm
  have hread : readData kind text = .ok (some (.typed o ts t a b c)) := by
    have hdt : deserializeText (.cls kind.className) text = .ok (.typed o ts t a b c) := by
      unfold deserializeText
      rw [if_neg (utf8_lt hm.xml).2, hx]
      simp only [bind, Except.bind, hd]
      rfl
    revert hk hdt
    cases kind <;> intro hk hdt <;> simp at hk <;> simp only [readData, bind, Except.bind, hdt] <;> rfl
  unfold unpackMessage
  simp only [bind, Except.bind, h1, h2, hread]
  exact ⟨_, rfl, rfl, rfl⟩

/-- The attributes of a message. -/
theorem unpack_values {kind : MsgKind} {e : List Field} {es : List Xml} {bytes : Bytes} {vals : List PyVal}
    (hk : kind ≠ .pipelineOutput ∧ kind ≠ .pipelineInput ∧ kind ≠ .publicKeyRequest)
    (hc : (findClass kind.className).map ClassDef.parts = some ([], [], e, [])) (h : MessageProps kind es bytes) (hv : ReadAll es .clear e vals) :
    ∃ u v, unpackMessage bytes = .ok u ∧ u.kind = kind ∧ u.data = some v ∧
      ∀ attr, dataAttr kind v attr = ((e.zip vals).map fun p => (p.1.attr, p.2)).lookup attr.toList := by
  obtain ⟨text, r, hm, hx⟩ := h
  cases hf : findClass kind.className with
  | none => rw [hf] at hc; simp at hc
  | some c =>
    rw [hf] at hc
    simp only [Option.map_some, ClassDef.parts, Option.some.injEq, Prod.mk.injEq] at hc
    obtain ⟨c1, c2, rfl, c4⟩ := hc
    obtain ⟨ms, st, h1, h2⟩ := readProps_all c4 hv
    obtain ⟨o, ts, t, a, b, st', hd⟩ := deser_props (r := r) hf c1 c2 h1
    obtain ⟨u, u1, u2, u3⟩ := unpack_class hk hm hx hd
    refine ⟨u, _, u1, u2, u3, fun attr => ?_⟩
    unfold dataAttr
    rw [hf]
    subst h2
    dsimp only
    congr 1
    rw [List.zip_map_right, List.map_map]
    rfl

/-- An object that is there. -/
theorem readProp_first {c : ClassDef} {f : Field} {name : PyStr} (hn : f.write.name = some name) (hf : .Obj = (fieldTags f.write.tag).headD .star)
    {es : List Xml} {x : Xml} {v : PyVal} (st st' : DeState)
    (hx : es.find? (fieldMatch .Obj (some name)) = some x) (hd : deser f.read x st = .ok (v, st')) :
    readProp c f (fun t' st => deLook (some .MS) t' f.write.name f.read [.node .MS none none none es] st)
      (fun t' => findField (some .MS) t' f.write.name [.node .MS none none none es]) st = .ok ((f.write.readWith x, v), st') := by
  have := readProp_eq c f (some .MS) [.node .MS none none none es] st
  refine this.trans ?_
  have hfe : fieldElem (some .MS) f [.node .MS none none none es] = some x := by
    unfold fieldElem
    cases ht : fieldTags f.write.tag with
    | nil => rw [ht] at hf; simp at hf
    | cons t ts =>
      rw [ht] at hf
      simp only [List.headD_cons] at hf
      subst hf
      simp only [List.findSome?_cons, findField_ms, hn, hx]
  rw [hfe]
  dsimp only
  rw [hd]
  rfl

def methodTypes : List PyStr := enumTypes "System.Management.Automation.Remoting.RemoteHostMethodId"

/-- The object of a method id. -/
def methodVal (mi : Int) : PyVal :=
  .typed 0 methodTypes ((methodNames.zipIdx.map (fun e => ((e.2 : Int) + 1, e.1))).lookup mi) [(.plain .I32 none false, .sc (.int mi))] [] []

theorem find_method : findClass "HostMethodIdentifier".toList =
    some (enumClass "System.Management.Automation.Remoting.RemoteHostMethodId" (.enum (methodNames.zipIdx.map (fun e => ((e.2 : Int) + 1, e.1))))) := rfl

theorem types_objs {s s1 : SrvState} {types : List PyStr} {tx : List Xml} (h : TypesWritten s types tx s1) : s1.objs = s.objs := by
  cases h <;> rfl

theorem find_skip {p : Xml → Bool} {tx xs : List Xml} (h : ∀ x ∈ tx, p x = false) : (tx ++ xs).find? p = xs.find? p := by
  rw [List.find?_append, List.find?_eq_none.2, Option.none_or]
  intro x hx
  simp [h x hx]

theorem objText_read {text : Option PyStr} {sx : List Xml} (h : ObjText text sx) (pre : List Xml) (hp : ∀ x ∈ pre, x.tag ≠ .ToString)
    (post : List Xml) (hq : ∀ x ∈ post, x.tag ≠ .ToString) : readText (pre ++ (sx ++ post)) = .ok text := by
  unfold readText
  rw [find_skip (fun x hx => by simp [hp x hx])]
  cases text with
  | none =>
    rw [show sx = [] from h, List.nil_append, List.find?_eq_none.2]
    intro x hx
    simp [hq x hx]
  | some t =>
    obtain ⟨x, rfl, hx⟩ := h
    simp only [List.cons_append, List.nil_append, List.find?_cons, Xml.tag, decide_true, Xml.text, text_read hx, bind, Except.bind]
    rfl

theorem objText_tags {text : Option PyStr} {sx : List Xml} (h : ObjText text sx) : ∀ x ∈ sx, x.tag = .ToString := by
  cases text with
  | none => rw [show sx = [] from h]; simp
  | some t => obtain ⟨x, rfl, -⟩ := h; simp [Xml.tag]

theorem method_read {s s1 : SrvState} {mi : Int} {x : Xml} (h : MethodWritten s mi x s1) {d : DeState} (hk : Knows s d) (hs : s.objs = []) :
    ∃ d', deser (.cls "HostMethodIdentifier".toList) x d = .ok (methodVal mi, d') ∧ Knows s1 d' := by
  cases h with | @intro _ r types tx sx mid text _ ht hsx hm =>
  have htags := objText_tags hsx
  have hmt : ∀ y ∈ mid, y.tag = .ToString ∨ y.tag = .I32 := by
    rcases hm with rfl | rfl <;> intro y hy <;> simp only [List.mem_cons, List.mem_append, List.not_mem_nil, or_false] at hy
    · rcases hy with rfl | hy
      · exact .inr rfl
      · exact .inl (htags y hy)
    · rcases hy with hy | rfl
      · exact .inl (htags y hy)
      · exact .inr rfl
  have hno : NoTypes mid := by
    intro y hy
    rcases hmt y hy with h | h <;> rw [h] <;> decide
  obtain ⟨d1, hd1, hk1⟩ := types_read ht hno hk
  have htx : ∀ y ∈ tx, y.tag ≠ .ToString ∧ y.tag ≠ .I32 := by
    intro y hy
    rcases types_tags ht y hy with h | h <;> rw [h] <;> decide
  have htext : readText (tx ++ mid) = .ok text := by
    rcases hm with rfl | rfl
    · have := objText_read hsx (tx ++ [.node .I32 none none (some (pyStrInt mi)) []]) (by
        intro y hy
        rcases List.mem_append.mp hy with hy | hy
        · exact (htx y hy).1
        · simp only [List.mem_cons, List.not_mem_nil, or_false] at hy; subst hy; simp [Xml.tag]) [] (by simp)
      simpa using this
    · exact objText_read hsx tx (fun y hy => (htx y hy).1) _ (by simp [Xml.tag])
  have hfind : (tx ++ mid).find? (fieldMatch .I32 none) = some (.node .I32 none none (some (pyStrInt mi)) []) := by
    rw [find_skip (fun y hy => by simp [fieldMatch, (htx y hy).2])]
    rcases hm with rfl | rfl
    · rfl
    · rw [find_skip (fun y hy => by simp [fieldMatch, htags y hy])]
      rfl
  have hprops : readProps (enumClass "System.Management.Automation.Remoting.RemoteHostMethodId"
        (.enum (methodNames.zipIdx.map (fun e => ((e.2 : Int) + 1, e.1)))))
      (fun f t st => deLook none t f.write.name f.read (tx ++ mid) st) (fun f t => findField none t f.write.name (tx ++ mid))
      [⟨"value".toList, .plain .I32 none false, .plain .I32⟩] d1 = .ok ([(.plain .I32 none false, .sc (.int mi))], d1) := by
    unfold readProps
    have := readProp_eq (enumClass "System.Management.Automation.Remoting.RemoteHostMethodId"
      (.enum (methodNames.zipIdx.map (fun e => ((e.2 : Int) + 1, e.1))))) ⟨"value".toList, .plain .I32 none false, .plain .I32⟩ none (tx ++ mid) d1
    rw [this]
    have hfe : fieldElem none ⟨"value".toList, .plain .I32 none false, .plain .I32⟩ (tx ++ mid) =
        some (.node .I32 none none (some (pyStrInt mi)) []) := by
      unfold fieldElem
      show (fieldTags .I32).findSome? _ = _
      rw [show fieldTags .I32 = [.I32] by decide]
      simp only [List.findSome?_cons, Meta.name, findField, hfind]
    rw [hfe]
    dsimp only
    rw [deser_leaf _ (unpack_number (.inl rfl) mi none d1)]
    simp only [Except.map, bind, Except.bind, readProps]
    rfl
  refine ⟨{ d1 with objs := assign d1.objs r (methodVal mi) }, ?_, hk1.1, ?_⟩
  · rw [deser]
    have hset : (DMeta.cls "HostMethodIdentifier".toList).settle .Obj = .cls "HostMethodIdentifier".toList := rfl
    simp only [bind, Except.bind, hd1, unpackPrim, hset, chooseMeta, find_method, htext, if_true]
    rw [show (enumClass "System.Management.Automation.Remoting.RemoteHostMethodId"
        (.enum (methodNames.zipIdx.map (fun e => ((e.2 : Int) + 1, e.1))))).sets = [⟨"value".toList, .plain .I32 none false, .plain .I32⟩] from rfl, hprops]
    rfl
  · intro q v hq
    rw [types_objs ht, hs] at hq
    simp at hq

theorem items_read {q : Place} : ∀ {xs : List Xml} {s s' : SrvState} {vs : List SVal}, WrittenItems s q vs xs s' → ItemsRead s q vs xs s'
  | [], _, _, _, h => by
    cases h
    intro m d _ _ hk
    exact ⟨d, by rw [deAll, valuesOf], hk⟩
  | x :: xs, _, _, _, h => by
    cases h with
    | cons h1 h2 => exact items_cons (written_read h1) (items_read h2)

theorem arguments_read {s : SrvState} {items : List SVal} {x : Xml} (h : ArgumentsWritten s items x) {d : DeState} (hk : Knows s d) :
    ∃ d', deser (.list (.plain .star)) x d = .ok (.list (items.map SVal.value), d') := by
  cases h with | @intro s1 s2 r types _ tx xs rest ht hw hb =>
  have hno : NoTypes (.node .LST none none none xs :: rest) := by
    intro x hx
    rcases List.mem_cons.mp hx with rfl | hx
    · exact ⟨by simp [Xml.tag], by simp [Xml.tag]⟩
    · exact ⟨(hb x hx).1, (hb x hx).2.1⟩
  obtain ⟨d1, hd1, hk1⟩ := types_read ht hno hk
  have hall : ∃ d2, deAll true (.plain .star) xs d1 = .ok (valuesOf items, d2) := by
    rcases hw with hw | ⟨hw, hx⟩
    · obtain ⟨d2, h2, -⟩ := items_read hw (.plain .star) d1 (by simp) ⟨_, rfl⟩ hk1
      exact ⟨d2, h2⟩
    · cases hw with
      | nil => simp at hx
      | @cons _ _ _ _ v vs y ys h1 h2 =>
        simp only [List.head?_cons, Option.map_some, Option.some.injEq] at hx
        obtain ⟨d2, e2, k2⟩ := written_read h1 (.plain .star) d1 (.inl rfl) hk1
        obtain ⟨d3, e3, -⟩ := items_read h2 (.plain .Obj) d2 (fun _ => rfl) (.inr rfl) k2
        refine ⟨d3, ?_⟩
        rw [deAll]
        simp only [e2, bind, Except.bind, if_true, hx, show (DMeta.plain .star).settle .Obj = .plain .Obj from rfl, e3, pure, Except.pure, valuesOf]
  obtain ⟨d2, hd2⟩ := hall
  rw [← valuesOf_eq]
  refine ⟨_, deser_known (d2 := d2) hd1 (m' := .list (.plain .star)) rfl (.inr (.inl ⟨_, _, rfl, ?_, rfl⟩))⟩
  rw [deFind_skip, hd2]
  intro x hx
  rcases types_tags ht x hx with h | h <;> rw [h] <;> decide

theorem find_object {es : List Xml} {name : String} {x : Xml} (h : SaysObj es name x) :
    es.find? (fieldMatch .Obj (some name.toList)) = some x := find_obj h

/-- The call as it is read. -/
theorem call_read {kind : MsgKind} (hk : kind = .pipelineHostCall ∨ kind = .runspacePoolHostCall) {ci mi : Int} {items : List SVal} {bytes : Bytes}
    (h : CallMessage kind ci mi items bytes) : ∃ u v, unpackMessage bytes = .ok u ∧ u.kind = kind ∧ u.data = some v ∧
      dataAttr kind v "ci" = some (.sc (.int ci)) ∧ dataAttr kind v "mi" = some (methodVal mi) ∧
      dataAttr kind v "mp" = some (.list (items.map SVal.value)) := by
  obtain ⟨es, x1, x2, s1, hp, hci, h1, hm, h2, ha⟩ := h
  obtain ⟨d1, r1, k1⟩ := method_read hm (d := .clear) ⟨fun _ => rfl, fun _ _ h => by simp at h⟩ rfl
  obtain ⟨d2, r2⟩ := arguments_read ha k1
  have hread : ReadAll es .clear [prim "ci" .I64 "ci", objOf "mi" "mi" "HostMethodIdentifier", listOf "mp" "mp" .star]
      [.sc (.int ci), methodVal mi, .list (items.map SVal.value)] :=
    ⟨_, _, fun c => readProp_says .clear ⟨by decide, by decide⟩ hci (unpack_number (.inr rfl) ci), _, _,
      fun c => readProp_first (f := objOf "mi" "mi" "HostMethodIdentifier") (name := "mi".toList) rfl (by decide) .clear d1 (find_object h1) r1, _, _,
      fun c => readProp_first (f := listOf "mp" "mp" .star) (name := "mp".toList) rfl (by decide) d1 d2 (find_object h2) r2, trivial⟩
  rcases hk with rfl | rfl
  all_goals
    obtain ⟨u, v, u1, u2, u3, u4⟩ := unpack_values (e := [prim "ci" .I64 "ci", objOf "mi" "mi" "HostMethodIdentifier", listOf "mp" "mp" .star])
      (by decide) (by decide +kernel) hp hread
    exact ⟨u, v, u1, u2, u3, by rw [u4]; rfl, by rw [u4]; rfl, by rw [u4]; rfl⟩

theorem args_read {items : List SVal} {args : List HVal} (h : AreArgs items args) : hostArgs (items.map SVal.value) = .ok args := by
  induction h with
  | nil => rfl
  | cons h1 _ ih =>
    have : ∀ {v : SVal} {a : HVal}, IsArg v a → hostArg v.value = .ok a := by
      intro v a h
      cases h with
      | @obj types base text adp ps =>
        rw [SVal.value, namedValues_eq, List.map_map, hostArg, List.filterMap_map]
        congr 2
        conv => rhs; rw [← List.filterMap_some (l := ps)]
        rfl
      | _ => rfl
    rw [List.map_cons, hostArgs, this h1, ih]
    rfl

/-! ### writing the answer -/

theorem wire_method : OnWire (enumTypes "System.Management.Automation.Remoting.RemoteHostMethodId") := by
  show _ ∈ wireTypes
  unfold wireTypes
  iterate 10 apply List.mem_cons_of_mem
  exact List.mem_cons_self
theorem wire_color : OnWire (enumTypes "System.ConsoleColor") := by
  show _ ∈ wireTypes
  unfold wireTypes
  iterate 11 apply List.mem_cons_of_mem
  exact List.mem_cons_self
theorem wire_coordinates : OnWire (["System.Management.Automation.Host.Coordinates", "System.ValueType", "System.Object"].map String.toList) := by
  show _ ∈ wireTypes
  unfold wireTypes
  iterate 12 apply List.mem_cons_of_mem
  exact List.mem_cons_self
theorem wire_size : OnWire (["System.Management.Automation.Host.Size", "System.ValueType", "System.Object"].map String.toList) := by
  show _ ∈ wireTypes
  unfold wireTypes
  iterate 13 apply List.mem_cons_of_mem
  exact List.mem_cons_self

theorem method_text {n : Nat} {part : HostPart} {name : String} (h : IsMethod n part name) :
    (methodNames.zipIdx.map (fun e => ((e.2 : Int) + 1, e.1))).lookup (n : Int) = some name.toList ∧
      serializeString name.toList = name.toList := by
  have hall : ∀ part : HostPart, ∀ i : Fin part.documented.length,
      (methodNames.zipIdx.map (fun e => ((e.2 : Int) + 1, e.1))).lookup ((part.firstId + i : Nat) : Int) = some part.documented[i].toList ∧
      serializeString part.documented[i].toList = part.documented[i].toList := by
    intro part
    cases part <;> decide +kernel
  obtain ⟨h1, h2⟩ := h
  obtain ⟨hi, he⟩ := List.getElem?_eq_some_iff.mp h2
  have := hall part ⟨_, hi⟩
  dsimp only at this
  rw [Nat.add_sub_of_le h1] at this
  have hf : part.documented[(⟨n - part.firstId, hi⟩ : Fin _)] = name := he
  rw [hf] at this
  exact this

theorem method_doc {n : Nat} {part : HostPart} {name : String} (h : IsMethod n part name) :
    DocAs (metaOf .Obj "mi") (methodVal n) (enumerated (some "mi") "System.Management.Automation.Remoting.RemoteHostMethodId" name n) [] := by
  obtain ⟨h1, h2⟩ := method_text h
  unfold methodVal
  rw [h1]
  exact doc_enum wire_method name h2 n (some "mi") false

/-- A structure with two numbers. -/
theorem doc_structure {type : String} (hw : OnWire ([type, "System.ValueType", "System.Object"].map String.toList)) (a b : String) (i j : Int) (n : Option String) :
    DocAs (.plain .star (n.map String.toList) false) (.typed 0 ([type, "System.ValueType", "System.Object"].map String.toList) none [] []
      [(metaOf .I32 a, .sc (.int i)), (metaOf .I32 b, .sc (.int j))]) (pairDoc n type (number (some a) i) (number (some b) j)) [] := by
  refine ⟨fun o ho => by cases ho; simp, fun st tbl hi hf => ?_⟩
  have hi' : DocAgree (newObjId st).2 tbl := hi
  obtain ⟨tn, st1, t1, t2, tbl1, t3, t4⟩ := doc_tn hw hi'
  refine ⟨.node .Obj (some (pyStrNat st.objId)) (n.map String.toList) none
    (tn :: [.node .Props none none none [.node .I32 none (some a.toList) (some (pyStrInt i)) [], .node .I32 none (some b.toList) (some (pyStrInt j)) []]]), st1, ?_,
    by simp [Xml.tag], by simp [Xml.tag], ?_, tbl1, ?_, t3⟩
  · have t1' : createTnOpt ([type, "System.ValueType", "System.Object"].map String.toList) { st with objId := st.objId + 1 } = .ok ([tn], st1) := by
      simp only [newObjId, List.map_cons, List.map_nil] at t1 ⊢
      simp only [createTnOpt, t1, bind, Except.bind, pure, Except.pure]
    have hsp : serProps [(metaOf .I32 a, .sc (.int i)), (metaOf .I32 b, .sc (.int j))] st1 =
      .ok ([.node .I32 none (some a.toList) (some (pyStrInt i)) [], .node .I32 none (some b.toList) (some (pyStrInt j)) []], st1) := rfl
    have hnil : ∀ s, serProps [] s = .ok ([], s) := fun _ => rfl
    have hset : ∀ a b c d e f, (Meta.plain .star (n.map String.toList) false).settle (.typed a b c d e f) = .plain .Obj (n.map String.toList) false :=
      fun _ _ _ _ _ _ => rfl
    rw [ser]
    simp only [hset, Meta.tag, Meta.name, newObjId, if_true, t1', hsp, hnil, bind, Except.bind, pure, Except.pure, setName_obj,
      toStringKids, List.append_nil, List.cons_append, List.nil_append]
    rfl
  · rw [t2]
    exact fun o ho => .inl ho
  · refine resolve_node (by simp) (t4 _ [] _ _ ?_)
    refine resolveKids_cons (by simp [Xml.tag]) (by simp [Xml.tag]) (resolve_node (by simp) ?_) (resolveKids_nil _)
    exact resolveKids_cons (by simp [Xml.tag]) (by simp [Xml.tag]) (resolve_node (by simp) (resolveKids_nil _))
      (resolveKids_cons (by simp [Xml.tag]) (by simp [Xml.tag]) (resolve_node (by simp) (resolveKids_nil _)) (resolveKids_nil _))

theorem doc_version (n : Option String) (s : PyStr) :
    DocAs (.plain .star (n.map String.toList) false) (.tagged .Version (.str s)) (leaf .Version n s) [] := by
  refine ⟨fun o ho => (by cases ho), fun st tbl hi _ => ?_⟩
  refine ⟨.node .Version none (n.map String.toList) (some s) [], st, rfl, by simp [Xml.tag], by simp [Xml.tag], fun o ho => .inl ho, tbl,
    resolve_node (by simp) (resolveKids_nil _), hi⟩

theorem bigEndian_eq (n : Nat) : (UUID.ofNat n).bytes = bigEndian 16 n := by
  have key : ∀ w m, bigEndian w m = (List.range w).map fun i => UInt8.ofNat (m / 256 ^ (w - 1 - i)) := by
    intro w
    induction w with
    | zero => intro m; rfl
    | succ w ih =>
      intro m
      rw [bigEndian, ih, List.range_succ, List.map_append]
      congr 1
      · refine List.map_congr_left fun i hi => ?_
        rw [List.mem_range] at hi
        rw [Nat.div_div_eq_div_mul, ← Nat.pow_succ', show (w - 1 - i).succ = w + 1 - 1 - i by omega]
      · simp
  rw [key]
  rfl

theorem answer_doc {r : HVal} {d : Doc} (h : ResultDoc r d) : r ≠ .none ∧ ∃ mr, r.val = .ok mr ∧ DocAs (metaOf .star "mr") mr d [] := by
  cases h with
  | @text s => exact ⟨by simp, _, rfl, doc_text (.inr rfl) (some "mr") s⟩
  | @number i => exact ⟨by simp, _, rfl, doc_number (.inr rfl) (some "mr") i⟩
  | @truth b => exact ⟨by simp, _, rfl, doc_truth (.inr rfl) (some "mr") b⟩
  | @guid n u hu =>
    have : UUID.ofNat n = u := by
      cases u with | mk b hb =>
      have := bigEndian_eq n
      simp only at hu
      rw [← hu] at this
      cases ho : UUID.ofNat n with | mk c hc =>
      rw [ho] at this
      simp only at this
      subst this
      rfl
    refine ⟨by simp, _, rfl, ?_⟩
    rw [this]
    exact doc_value (some "mr") (.sc (.guid u))
  | @version s => exact ⟨by simp, _, rfl, doc_version (some "mr") s⟩
  | @color i name hn =>
    have hc : findClass "Color".toList = some (enumClass "System.ConsoleColor" (stringMap [(0, "Black"), (1, "DarkBlue"), (2, "DarkGreen"), (3, "DarkCyan"),
      (4, "DarkRed"), (5, "DarkMagenta"), (6, "DarkYellow"), (7, "Gray"), (8, "DarkGray"), (9, "Blue"), (10, "Green"),
      (11, "Cyan"), (12, "Red"), (13, "Magenta"), (14, "Yellow"), (15, "White")])) := rfl
    have hall : ∀ i : Fin colorNames.length, (([(0, "Black"), (1, "DarkBlue"), (2, "DarkGreen"), (3, "DarkCyan"),
      (4, "DarkRed"), (5, "DarkMagenta"), (6, "DarkYellow"), (7, "Gray"), (8, "DarkGray"), (9, "Blue"), (10, "Green"),
      (11, "Cyan"), (12, "Red"), (13, "Magenta"), (14, "Yellow"), (15, "White")] : List (Int × String)).map (fun e => (e.1, e.2.toList))).lookup ((i : Nat) : Int) =
        some colorNames[i].toList ∧ serializeString colorNames[i].toList = colorNames[i].toList := by decide +kernel
    obtain ⟨hi, he⟩ := List.getElem?_eq_some_iff.mp hn
    obtain ⟨l1, l2⟩ := hall ⟨i, hi⟩
    have hf : colorNames[(⟨i, hi⟩ : Fin _)] = name := he
    rw [hf] at l1 l2
    exact ⟨by simp, _, instance_eq hc l1, doc_enum wire_color name l2 i (some "mr") false (.inr rfl)⟩
  | @coordinates x y => exact ⟨by simp, _, rfl, doc_structure wire_coordinates "X" "Y" x y (some "mr")⟩
  | @size h w => exact ⟨by simp, _, rfl, doc_structure wire_size "Width" "Height" w h (some "mr")⟩

end Verif
