import Verif.Lemmas.Namespaces
import Verif.Props.TransportInvoke
import Verif.Props.XmlText
/-
C100: documents mean the same whatever their prefixes.
-/
namespace Verif

/-- C100: a document of the server is read as its elements whatever prefixes it uses, wherever it declares them, and whether it has a
default namespace. -/
theorem C100_prefixes {text : PyStr} {e : Elem} (h : DocumentOf text e) : parseWsman (utf8 text) = some e := by
  obtain ⟨raw, h1, h2⟩ := h
  obtain ⟨t, h3, h4⟩ := resolveElem_written h2 _ scope_outermost good_outermost
  unfold parseWsman fromString
  rw [decode_utf8, Option.bind_some, h1, Option.bind_some, h3, Option.map_some, h4]

/-- C100: the prefixes stand for the namespaces of the protocol, one prefix for each. -/
theorem C100_namespaces (p uri : PyStr) : libraryScope p = some uri ↔ ∃ d ∈ protocolNamespaces, p = d.1.toList ∧ uri = d.2.toList := by
  have h1 : ∀ d ∈ protocolNamespaces, libraryScope d.1.toList = some d.2.toList := by decide +kernel
  have h2 : ∀ d ∈ wsmanNamespaces, ∃ e ∈ protocolNamespaces, d.1 = e.1.toList ∧ d.2 = e.2.toList := by decide +kernel
  constructor
  · intro h
    exact h2 (p, uri) (pair_of_lookup h)
  · rintro ⟨d, hd, rfl, rfl⟩
    exact h1 d hd

/-- C100: what the library finds in the elements of ElementTree, which have namespaces and no prefixes, is what is found in the elements with
the prefixes of the table. This holds for all documents that can be read, all paths with prefixes of the table, and all attributes without
namespace. -/
theorem C100_find {b : Bytes} {t : Elem} (h : fromString b = some t) :
    (∀ path r, t.findNs path = some r → t.inLibrary.find path = r.map Elem.inLibrary) ∧
    (∀ path rs, t.findAllNs path = some rs → t.inLibrary.findAll path = rs.map Elem.inLibrary) ∧
    ∀ path x name, x ∈ elemsAt path t → ':' ∉ name → x.inLibrary.attr name = x.attr name ∧ x.inLibrary.text = x.text := by
  have hc := fromString_clark h
  refine ⟨fun path r hr => ?_, fun path rs hr => ?_, fun path x name hx hn => ⟨?_, ?_⟩⟩
  · unfold Elem.findNs at hr
    cases hp : pathSteps path with
    | none => rw [hp] at hr; cases hr
    | some names =>
      rw [hp, Option.map_some, Option.some.injEq] at hr
      subst hr
      rw [find_eq, find_eq, elemsAt_library hp hc, List.head?_map]
  · unfold Elem.findAllNs at hr
    cases hp : pathSteps path with
    | none => rw [hp] at hr; cases hr
    | some names =>
      rw [hp, Option.map_some, Option.some.injEq] at hr
      subst hr
      rw [findAll_eq, findAll_eq, elemsAt_library hp hc]
  · have hxc := clark_elemsAt hc hx
    have hs : pathStep name = some name := by unfold pathStep; rw [if_neg hn]
    cases x with
    | node tag attrs text kids =>
      rw [Elem.Clark] at hxc
      show ((attrs.map fun a => (libraryName a.1, a.2)).find? (·.1 = name)).map (·.2) = (attrs.find? (·.1 = name)).map (·.2)
      have ha := hxc.2.1
      clear hxc hx
      induction attrs with
      | nil => rfl
      | cons a as ih =>
        have ih := ih fun y hy => ha y (List.mem_cons_of_mem _ hy)
        rw [List.map_cons, List.find?_cons, List.find?_cons]
        have := step_iff hs (ha a (List.mem_cons_self ..))
        by_cases he : a.1 = name
        · simp only [decide_eq_true he, decide_eq_true (this.2 he), Option.map_some]
        · have hne : ¬ libraryName a.1 = name := fun h => he (this.1 h)
          simp only [decide_eq_false he, decide_eq_false hne]
          exact ih
  · cases x; rfl

/-- The paths of the library. -/
example : ∀ path ∈ [["s:Body"], ["s:Header", "wsa:RelatesTo"], ["cfg:Config", "cfg:MaxEnvelopeSizekb"], ["s:Body", "s:Fault"], ["s:Code", "s:Subcode", "s:Value"],
      ["s:Reason", "s:Text"], ["s:Detail", "wsmanfault:WSManFault"], ["wsmanfault:Message", "wsmanfault:ProviderFault"],
      ["rsp:ReceiveResponse", "rsp:CommandState", "rsp:ExitCode"], ["rsp:ReceiveResponse", "rsp:Stream"], ["rsp:Shell", "rsp:IdleTimeOut"],
      ["wst:ResourceCreated", "wsa:ReferenceParameters", "wsman:SelectorSet"], ["rsp:CommandResponse", "rsp:CommandId"],
      ["rsp:ConnectResponse", "pwsh:connectResponseXml"], ["wsen:EnumerateResponse", "wsman:Items", "rsp:Shell"]],
    (pathSteps (path.map String.toList)).isSome = true := by decide +kernel

/-- C100: what the library writes is read by others as what its names stand for in the table: the document has all declarations that it
needs. -/
theorem C100_written {e e' : Elem} (hw : WrittenAs libraryScope e e') (h : (Elem.node e.tag (declarations e ++ e.attrs) e.text e.kids).Readable) :
    DocumentOf (printDocument e) e'.normal := by
  refine ⟨_, read_print h, ?_⟩
  obtain ⟨tag, attrs, text, kids⟩ := e
  exact written_normal (written_document hw h.2.1)

instance (s : PyStr) : Decidable (PlainName s) := by unfold PlainName; infer_instance
instance (s : PyStr) : Decidable (GoodName s) := by unfold GoodName; infer_instance

/-- A root with good names. -/
theorem readable_root {e e' : Elem} (hr : e.Readable) (hw : WrittenAs libraryScope e e') (ha : e.attrs = []) :
    DocumentOf (printDocument e) e'.normal := by
  refine C100_written hw ?_
  have hd := declarations_good e
  rw [ha, List.append_nil]
  obtain ⟨tag, attrs, text, kids⟩ := e
  obtain ⟨h1, _, _, h2, h3⟩ := hr
  exact ⟨h1, hd.1, hd.2, h2, h3⟩

/-- C100: every request of a shell is, for a reader with namespaces, the envelope with the names that the library uses. Texts are restricted as
in C77. -/
theorem C100_request (c : Conn) (hc : c.Clean) (u v : UUID) (hs : c.sessionId = v.toStr) (r : ShellReq) (h : r.Clean) :
    DocumentOf (printDocument (r.envelope c u.toStr)) (r.envelope c u.toStr).normal := by
  have hf := fine_request c hc u v hs r h
  exact readable_root hf.1 hf.2.2 (by cases r <;> rfl)

theorem clean_createOptions (s : WinRS) (h : s.Clean) : CleanOptions (some (createOptions s)) := by
  intro l hl v hv
  cases hl
  unfold createOptions at hv
  have hcp := h.codepage
  rw [List.mem_append] at hv
  rcases hv with hv | hv
  · split at hv
    · rw [List.mem_singleton] at hv; subst hv; exact ⟨by decide +kernel, by decide +kernel, .inr rfl⟩
    · cases hv
  · cases hp : s.codepage with
    | none => rw [hp] at hv; cases hv
    | some t =>
      rw [hp] at hv
      dsimp only at hv
      rw [List.mem_singleton] at hv
      subst hv
      exact ⟨by show LegalText "WINRS_CODEPAGE".toList; decide +kernel, hcp t hp, .inl rfl⟩

theorem normalKids_append (as bs : List Elem) : normalKids (as ++ bs) = normalKids as ++ normalKids bs := by
  induction as with
  | nil => rfl
  | cons a as ih => rw [List.cons_append, normalKids, ih]; rfl

theorem writtenKids_append {sc : NsScope} {as bs cs ds : List Elem} (h1 : WrittenKids sc as bs) (h2 : WrittenKids sc cs ds) :
    WrittenKids sc (as ++ cs) (bs ++ ds) := by
  match h1 with
  | .nil => exact h2
  | .cons hk hks => exact .cons hk (writtenKids_append hks h2)

def powershellUri : PyStr := "http://schemas.microsoft.com/powershell".toList

/-- The element with the first messages of a pool: its name has no prefix, and it declares the namespace itself. -/
theorem creation_written (text : Option PyStr) : WrittenAs libraryScope (.node "creationXml".toList [("xmlns".toList, powershellUri)] text [])
    (.node "pwsh:creationXml".toList [] text []) := by
  refine .node (uri := powershellUri) (name := "creationXml".toList) ?_ ⟨by decide, .inr ⟨rfl, by decide +kernel⟩⟩
    (.inr (.inl ⟨"pwsh".toList, by decide +kernel, rfl⟩)) (.declaration (p := []) .nil) (by decide) .nil
  intro p uri hm
  rw [List.mem_singleton, Prod.mk.injEq] at hm
  have : p = [] := declaring_inj (q := []) hm.1
  rw [this, hm.2]
  exact ⟨.inl rfl, by decide, by decide, by decide⟩

/-- The header of a create request of a pool. -/
def createHeaderOf (c : Conn) (u : UUID) (s : WinRS) : Elem :=
  createHeader c u.toStr .create s.resourceUri (some (⟨"protocolversion".toList, protocolVersionText, [("MustComply".toList, "true".toList)]⟩ :: createOptions s))
    none none

/-- C100: the create request of a pool. For a reader with namespaces its first messages are in an element of the namespace of PowerShell
([MS-PSRP] 3.1.5.3.1), in base64, below all other elements of the shell. -/
theorem C100_create (c : Conn) (hc : c.Clean) (u v : UUID) (hs : c.sessionId = v.toStr) (s : WinRS) (h : s.Clean) (hu : ∀ t ∈ s.resourceUri, CleanText t)
    (block : Bytes) :
    ∃ header, DocumentOf (printDocument (poolCreateEnvelope c u.toStr s block)) (.node "s:Envelope".toList [] none [header,
      .node "s:Body".toList [] none [.node "rsp:Shell".toList (createBody s).attrs none
        (normalKids (createBody s).kids ++ [.node "pwsh:creationXml".toList [] (textOf (b64Encode block)) []])]]) ∧
      header = (createHeaderOf c u s).normal := by
  have hopt : CleanOptions (some (⟨"protocolversion".toList, protocolVersionText, [("MustComply".toList, "true".toList)]⟩ :: createOptions s)) := by
    intro l hl v hv
    cases hl
    rcases List.mem_cons.1 hv with rfl | hv
    · exact ⟨by decide +kernel, by decide +kernel, .inr rfl⟩
    · exact clean_createOptions s h _ rfl v hv
  have hh := fine_header c hc u v hs .create s.resourceUri hu _ hopt none (fun l h => by cases h) none
  have hb := fine_create s h
  have hcr : (Elem.node "creationXml".toList [("xmlns".toList, powershellUri)] (some (b64Encode block)) []).Readable := by
    refine ⟨by decide +kernel, by decide, ?_, ?_, trivial⟩
    · intro a ha
      rw [List.mem_singleton] at ha
      subst ha
      exact ⟨by decide +kernel, by decide +kernel⟩
    · exact clean_of_plain (plain_b64 _)
  have hbw := hb.2.2
  have hbr := hb.1
  unfold createBody at hbw hbr
  obtain ⟨r1, r2, r3, r4, r5⟩ := hbr
  have hkw : WrittenKids libraryScope (createBody s).kids (createBody s).kids := writtenKids_of fun k hk => (fine_create_kids s h k hk).2.2
  have hkr : ∀ k ∈ (createBody s).kids, k.Readable := fun k hk => (fine_create_kids s h k hk).1
  have hsa : ∀ a ∈ (createBody s).attrs, goodTag a.1 = true := by
    intro a ha
    exact (opt_attr "ShellId" s.id (by decide +kernel) h.id a ha).1
  have hshell : (Elem.node "rsp:Shell".toList (createBody s).attrs none ((createBody s).kids ++
      [.node "creationXml".toList [("xmlns".toList, powershellUri)] (some (b64Encode block)) []])).Readable := by
    refine ⟨r1, r2, r3, r4, (readableKids_iff _).2 fun k hk => ?_⟩
    rcases List.mem_append.1 hk with hk | hk
    · exact hkr k hk
    · rw [List.mem_singleton] at hk; rw [hk]; exact hcr
  have hw := written_node (tag := "s:Envelope".toList) (attrs := []) (text := none) (by decide +kernel) .nil (fun _ h => by cases h)
    (.cons hh.2.2 (.cons (written_node (tag := "s:Body".toList) (attrs := []) (text := none) (by decide +kernel) .nil (fun _ h => by cases h)
      (.cons (written_node (tag := "rsp:Shell".toList) (attrs := (createBody s).attrs) (text := none) (by decide +kernel) r2 hsa
        (writtenKids_append hkw (.cons (creation_written (some (b64Encode block))) .nil))) .nil)) .nil))
  refine ⟨_, ?_, rfl⟩
  have := readable_root (e := poolCreateEnvelope c u.toStr s block) ?_ hw rfl
  · simp only [Elem.normal, normalKids, normalKids_append, Option.getD_some, Option.getD_none] at this
    exact this
  · have hno : ∀ a ∈ ([] : List (PyStr × PyStr)), GoodName a.1 ∧ ∀ c ∈ a.2, legalXmlChar c = true := by intro a ha; cases ha
    exact ⟨by decide +kernel, .nil, hno, clean_nil, hh.1, ⟨by decide +kernel, .nil, hno, clean_nil, hshell, trivial⟩, trivial⟩

/-- C100: an answer over HTTP, sealed or not. The document relates to the request, so its elements are returned, whatever its prefixes. -/
theorem C100_answer {env : TransportEnv} (henv : env.parse = parseWsman) (cfg : TransportCfg) (action : WSManAction) (id : PyStr) (message : Bytes)
    (w : TWorld) (r : HttpResponse) (text : PyStr) (x : Elem) (hready : ReadyFor env cfg message w) (hr : Receives env cfg w r (utf8 text))
    (hs : ¬ (400 ≤ r.status ∧ r.status < 600)) (hx : DocumentOf text x) (hid : RelatesTo x id) :
    (wsmanInvoke env cfg action id message w).1 = .ok x :=
  (C49_decided env cfg action id message w r (utf8 text) hready hr hs).1 x (by rw [henv, C100_prefixes hx]) hid

/-! ### Examples -/

def soapUri : PyStr := "http://www.w3.org/2003/05/soap-envelope".toList
def addressingUri : PyStr := "http://schemas.xmlsoap.org/ws/2004/08/addressing".toList
def windowsShellUri : PyStr := "http://schemas.microsoft.com/wbem/wsman/1/windows/shell".toList

/-- An answer with other prefixes, a default namespace, and a name that the library does not know. -/
def foreignRaw : Elem :=
  .node "e:Envelope".toList [("xmlns:e".toList, soapUri), ("xml:lang".toList, "en-US".toList), ("xmlns:a".toList, addressingUri)] none
    [.node "e:Header".toList [] none [.node "a:RelatesTo".toList [] (some "uuid:1".toList) []],
     .node "e:Body".toList [] none
       [.node "Shell".toList [("xmlns".toList, windowsShellUri), ("ShellId".toList, "7".toList)] none
         [.node "Name".toList [] (some "n".toList) [], .node "x:Y".toList [("xmlns:x".toList, "u".toList)] none []]]]

def foreignMeant : Elem :=
  .node "s:Envelope".toList [("xml:lang".toList, "en-US".toList)] none
    [.node "s:Header".toList [] none [.node "wsa:RelatesTo".toList [] (some "uuid:1".toList) []],
     .node "s:Body".toList [] none
       [.node "rsp:Shell".toList [("ShellId".toList, "7".toList)] none
         [.node "rsp:Name".toList [] (some "n".toList) [], .node "{u}Y".toList [] none []]]]

example : foreignRaw.print = ("<e:Envelope xmlns:e=\"http://www.w3.org/2003/05/soap-envelope\" xml:lang=\"en-US\" " ++
    "xmlns:a=\"http://schemas.xmlsoap.org/ws/2004/08/addressing\"><e:Header><a:RelatesTo>uuid:1</a:RelatesTo></e:Header><e:Body>" ++
    "<Shell xmlns=\"http://schemas.microsoft.com/wbem/wsman/1/windows/shell\" ShellId=\"7\"><Name>n</Name><x:Y xmlns:x=\"u\" /></Shell>" ++
    "</e:Body></e:Envelope>").toList := by decide +kernel

theorem good_none : GoodDeclarations [] := by intro p uri h; cases h

theorem good_cons {q v : PyStr} {as : List (PyStr × PyStr)} (hq : (q = [] ∨ (PlainName q ∧ q ≠ "xml".toList ∧ q ≠ "xmlns".toList ∧ v ≠ [])) ∧ '}' ∉ v ∧
    v ≠ "http://www.w3.org/XML/1998/namespace".toList ∧ v ≠ "http://www.w3.org/2000/xmlns/".toList) (h : GoodDeclarations as) :
    GoodDeclarations ((declaring q, v) :: as) := by
  intro p uri hm
  rcases List.mem_cons.1 hm with he | hm
  · rw [Prod.mk.injEq] at he
    rw [declaring_inj he.1, he.2]
    exact hq
  · exact h p uri hm

theorem no_declaration {n : PyStr} (h : declaredPrefix n = none) (p : PyStr) : n ≠ declaring p := by
  rintro rfl
  rw [declaredPrefix_declaring] at h
  cases h

theorem good_skip {n v : PyStr} {as : List (PyStr × PyStr)} (hn : declaredPrefix n = none) (h : GoodDeclarations as) :
    GoodDeclarations ((n, v) :: as) := by
  intro p uri hm
  rcases List.mem_cons.1 hm with he | hm
  · rw [Prod.mk.injEq] at he
    exact absurd he.1.symm (no_declaration hn p)
  · exact h p uri hm

theorem foreign_written : WrittenAs outermost foreignRaw foreignMeant := by
  refine .node (uri := soapUri) (name := "Envelope".toList) (good_cons (q := "e".toList) (by decide +kernel) (good_skip (by decide +kernel)
      (good_cons (q := "a".toList) (by decide +kernel) good_none)))
    ⟨by decide, .inl ⟨"e".toList, by decide, rfl, by decide +kernel, by decide⟩⟩ (.inr (.inl ⟨"s".toList, by decide +kernel, rfl⟩))
    (.declaration (p := "e".toList) (.attr (no_declaration (by decide +kernel)) (uri := xmlUri) (name := "lang".toList) ⟨by decide, .inl ⟨"xml".toList, by decide, rfl,
      by decide +kernel, by decide⟩⟩ (.inr (.inl ⟨"xml".toList, by decide +kernel, rfl⟩)) (.declaration (p := "a".toList) .nil))) (by decide)
    (.cons ?_ (.cons ?_ .nil))
  · refine .node (uri := soapUri) (name := "Header".toList) good_none ⟨by decide, .inl ⟨"e".toList, by decide, rfl, by decide +kernel, by decide⟩⟩
      (.inr (.inl ⟨"s".toList, by decide +kernel, rfl⟩)) .nil (by decide) (.cons ?_ .nil)
    exact .node (uri := addressingUri) (name := "RelatesTo".toList) good_none ⟨by decide, .inl ⟨"a".toList, by decide, rfl, by decide +kernel, by decide⟩⟩
      (.inr (.inl ⟨"wsa".toList, by decide +kernel, rfl⟩)) .nil (by decide) .nil
  · refine .node (uri := soapUri) (name := "Body".toList) good_none ⟨by decide, .inl ⟨"e".toList, by decide, rfl, by decide +kernel, by decide⟩⟩
      (.inr (.inl ⟨"s".toList, by decide +kernel, rfl⟩)) .nil (by decide) (.cons ?_ .nil)
    refine .node (uri := windowsShellUri) (name := "Shell".toList) (good_cons (q := []) (by decide +kernel) (good_skip (by decide +kernel) good_none))
      ⟨by decide, .inr ⟨rfl, by decide +kernel⟩⟩ (.inr (.inl ⟨"rsp".toList, by decide +kernel, rfl⟩))
      (.declaration (p := []) (.attr (no_declaration (by decide +kernel)) (uri := []) (name := "ShellId".toList) ⟨by decide, .inr ⟨rfl, rfl⟩⟩ (.inl ⟨rfl, rfl⟩) .nil))
      (by decide) (.cons ?_ (.cons ?_ .nil))
    · exact .node (uri := windowsShellUri) (name := "Name".toList) good_none ⟨by decide, .inr ⟨rfl, by decide +kernel⟩⟩
        (.inr (.inl ⟨"rsp".toList, by decide +kernel, rfl⟩)) .nil (by decide) .nil
    · exact .node (uri := "u".toList) (name := "Y".toList) (good_cons (q := "x".toList) (by decide +kernel) good_none)
        ⟨by decide, .inl ⟨"x".toList, by decide, rfl, by decide +kernel, by decide⟩⟩ (.inr (.inr ⟨by decide, by decide +kernel, rfl⟩))
        (.declaration (p := "x".toList) .nil) (by decide) .nil

mutual
def decideReadable : (e : Elem) → Decidable e.Readable
  | .node _ _ _ kids => by
    have := decideReadableKids kids
    unfold Elem.Readable
    infer_instance

def decideReadableKids : (ks : List Elem) → Decidable (ReadableKids ks)
  | [] => .isTrue trivial
  | k :: ks => by
    have := decideReadable k
    have := decideReadableKids ks
    unfold ReadableKids
    infer_instance
end

instance (e : Elem) : Decidable e.Readable := decideReadable e

theorem foreign_readable : foreignRaw.Readable := by decide +kernel

/-- The hypotheses of `C100_prefixes`. -/
theorem foreign_document : DocumentOf foreignRaw.print foreignMeant := ⟨_, read_print foreign_readable, by exact written_normal foreign_written⟩

example : parseWsman (utf8 foreignRaw.print) = some foreignMeant := C100_prefixes foreign_document

/-- What the library finds in the elements of ElementTree (`C100_find`): the attribute of the shell, whose prefix is not that of the document. -/
example : ∃ t, fromString (utf8 foreignRaw.print) = some t ∧
    ∃ r, t.findNs ["s:Body".toList, "rsp:Shell".toList] = some (some r) ∧ r.attr "ShellId".toList = some "7".toList ∧
      t.findAllNs ["s:Body".toList, "rsp:Shell".toList, "rsp:Name".toList] = some [.node ("{".toList ++ windowsShellUri ++ "}Name".toList) [] (some "n".toList) []] ∧
      t.findNs ["nobody:Body".toList] = none := by
  refine ⟨_, by unfold fromString; rw [decode_utf8, Option.bind_some, read_print foreign_readable, Option.bind_some]; rfl, _, rfl, by decide +kernel, rfl, rfl⟩

/-- The hypotheses of `C100_answer`. -/
example : (wsmanInvoke { demoEnv with parse := parseWsman } (plainCfg 0) .get "1".toList [1, 2]
    { outcomes := [.response { status := 200, content := utf8 foreignRaw.print }] }).1 = .ok foreignMeant := by
  refine C100_answer rfl _ _ _ _ _ { status := 200, content := utf8 foreignRaw.print } foreignRaw.print foreignMeant (.inl rfl)
    ⟨⟨_, rfl⟩, rfl, .inl ⟨?_, rfl⟩⟩ (by decide) foreign_document ⟨_, rfl, by decide +kernel⟩
  rintro ⟨rest, h | h⟩ <;> cases h

end Verif
