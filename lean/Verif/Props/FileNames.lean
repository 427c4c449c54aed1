import Verif.Model.LocalFile
import Verif.Proofs.FileUrl
import Verif.Props.UrlOpen
import Verif.Props.Bytes
/-
C100: which local file a name opens.
-/

namespace Resync
open Py Resync.Spec

/-- Names that `url_or_file_open` takes as they are -/
structure PlainFileName (uw : Char → Bool) (name : Str) : Prop where
  noScheme : ¬ WithScheme uw name
  noFragment : '#' ∉ name
  noHost : ¬ "//".toList <+: name
  noEscape : ¬ Escaped name
  noBlank : ∀ t c, name = t ++ [c] → isSpace c = false

theorem strip_file {name : Str} (h : ∀ t c, name = t ++ [c] → isSpace c = false) : strip ("file:".toList ++ name) = "file:".toList ++ name := by
  rcases List.eq_nil_or_concat name with rfl | ⟨t, c, rfl⟩
  · decide
  · refine strip_ends (a := 'f') (b := c) rfl ?_ (by decide) (h t c (by simp))
    rw [List.concat_eq_append, ← List.append_assoc, List.getLast?_append]; rfl

theorem unwrap_file {u : Str} {t : Str} (e : u = 'f' :: t) (h : strip u = u) : unwrapUrl u = u := by
  unfold unwrapUrl
  rw [h]
  dsimp only
  have h1 : ¬ (u.head? = some '<' ∧ u.getLast? = some '>') := by
    rw [e]; rintro ⟨h, -⟩; revert h; simp
  rw [if_neg h1, if_neg]
  rw [e]
  rintro ⟨r, h⟩
  have h : 'U' :: ("RL:".toList ++ r) = 'f' :: t := h
  simp at h

theorem openUrl_noScheme {uw : Char → Bool} {name : Str} (h : ¬ WithScheme uw name) : openUrl uw name = "file:".toList ++ name := by
  unfold openUrl
  rw [if_neg (by rw [hasScheme_iff]; exact h)]

theorem splitType_file (rest : Str) : splitType ("file:".toList ++ rest) = some ("file".toList, rest) := rfl

theorem unquote_nil (dec : List UInt8 → Str) : unquote dec [] = [] := rfl

theorem fileOf_rest {dec : List UInt8 → Str} (D : Decodes dec) {url rest : Str} (h : splitTag (unwrapUrl url) = "file:".toList ++ rest)
    (hn : ¬ "//".toList <+: rest) (he : ¬ Escaped rest) : fileOfUrl dec url = some rest := by
  unfold fileOfUrl
  rw [h, splitType_file]
  dsimp only
  rw [if_pos rfl, splitHost_none hn]
  dsimp only
  rw [if_pos (Or.inl (unquote_nil dec)), unquote_plain D he]

/-- C100.  A name given to `url_or_file_open` (the location of a list or document to read, the URI of a resource to copy) opens the file
of exactly this name if and only if it has no scheme and no '#', does not begin with '//', has no '%' followed by two
hexadecimal digits, and does not end with a blank character. -/
theorem C100_exact (uw : Char → Bool) {dec : List UInt8 → Str} (D : Decodes dec) (name : Str) :
    openedFile uw dec name = some name ↔ PlainFileName uw name := by
  constructor
  · intro h
    unfold openedFile fileOfUrl at h
    split at h
    · cases h
    · rename_i scheme rest hst
      split at h
      · rename_i hfile
        dsimp only at h
        split at h
        · simp only [Option.some.injEq] at h
          have l1 := (unwrapUrl_sublist (openUrl uw name)).length_le
          have l2 := splitTag_len (unwrapUrl (openUrl uw name))
          have l3 := splitType_len hst
          have l4 := splitHost_len rest
          have l5 := unquote_len D (splitHost rest).2
          have l6 := congrArg List.length h
          have l7 : scheme.length = 4 := by rw [hfile]; rfl
          have hns : ¬ WithScheme uw name := by
            intro hs
            have : openUrl uw name = name := by
              unfold openUrl; rw [if_pos ((hasScheme_iff uw name).mpr hs)]
            rw [this] at l1 l2 l3
            omega
          rw [openUrl_noScheme hns] at l1 l2 l3 hst
          have l8 : ("file:".toList ++ name).length = 5 + name.length := by
            rw [List.length_append]; rfl
          rw [l8] at l1
          have e1 : unwrapUrl ("file:".toList ++ name) = "file:".toList ++ name :=
            (unwrapUrl_sublist _).eq_of_length (by rw [l8]; omega)
          have hno : '#' ∉ name := by
            intro hm
            have := l2.2 (by rw [e1]; simp [hm])
            omega
          rw [e1, splitTag_none (by simpa using hno), splitType_file] at hst
          simp only [Option.some.injEq, Prod.mk.injEq] at hst
          obtain ⟨-, rfl⟩ := hst
          have hnh : ¬ "//".toList <+: name := fun hp => by have := l4.2 hp; omega
          rw [splitHost_none hnh] at h l5 l6
          refine ⟨hns, hno, hnh, fun he => ?_, ?_⟩
          · have := unquote_escaped D he
            dsimp only at l6
            omega
          · rintro t c rfl
            by_contra hc
            have hs : ("file:".toList ++ (t ++ [c])).length ≤ (strip ("file:".toList ++ (t ++ [c]))).length := by
              rw [← e1]
              conv_lhs => rw [e1]
              have : (unwrapUrl ("file:".toList ++ (t ++ [c]))).length ≤ (strip ("file:".toList ++ (t ++ [c]))).length := by
                unfold unwrapUrl
                dsimp only
                have a1 : ∀ u : Str, (if u.head? = some '<' ∧ u.getLast? = some '>' then strip (u.drop 1).dropLast else u).length ≤ u.length := by
                  intro u; split
                  · have b1 := (strip_sublist (u.drop 1).dropLast).length_le
                    rw [List.length_dropLast, List.length_drop] at b1; omega
                  · exact Nat.le_refl _
                have a2 : ∀ u : Str, (if "URL:".toList <+: u then strip (u.drop 4) else u).length ≤ u.length := by
                  intro u; split
                  · have b1 := (strip_sublist (u.drop 4)).length_le
                    rw [List.length_drop] at b1; omega
                  · exact Nat.le_refl _
                exact Nat.le_trans (a2 _) (a1 _)
              rw [e1] at this
              rw [e1]; exact this
            have hlt : (strip ("file:".toList ++ (t ++ [c]))).length < ("file:".toList ++ (t ++ [c])).length := by
              unfold strip rstrip
              have ed : ("file:".toList ++ (t ++ [c])).dropWhile isSpace = "file:".toList ++ (t ++ [c]) := rfl
              rw [ed, ← List.append_assoc, List.reverse_append, List.reverse_singleton, List.singleton_append,
                List.dropWhile_cons_of_pos (by simpa using hc), List.length_reverse]
              have := (List.dropWhile_sublist (l := ("file:".toList ++ t).reverse) isSpace).length_le
              rw [List.length_reverse] at this
              rw [List.length_append (bs := [c])]
              simp only [List.length_singleton]; omega
            omega
        · cases h
      · cases h
  · intro h
    unfold openedFile
    rw [openUrl_noScheme h.noScheme]
    refine fileOf_rest D ?_ h.noHost h.noEscape
    rw [unwrap_file (u := "file:".toList ++ name) rfl (strip_file h.noBlank), splitTag_none (by simpa using h.noFragment)]

theorem rstrip_keep {x b : Str} {c : Char} (hc : isSpace c = false) : ∃ b', b' <+: b ∧ rstrip (x ++ c :: b) = x ++ c :: b' := by
  refine ⟨rstrip b, ?_, ?_⟩
  · unfold rstrip
    have := List.dropWhile_suffix (l := b.reverse) isSpace
    simpa using List.reverse_prefix.mpr this
  · unfold rstrip
    rw [List.reverse_append, List.reverse_cons, List.append_assoc]
    have : ∀ l : Str, (l ++ ([c] ++ x.reverse)).dropWhile isSpace = l.dropWhile isSpace ++ ([c] ++ x.reverse) := by
      intro l
      induction l with
      | nil => simp [hc]
      | cons a t ih =>
        rw [List.cons_append, List.dropWhile_cons, List.dropWhile_cons]
        split
        · exact ih
        · rfl
    rw [this]
    simp

theorem splitTag_last {x b : Str} (hb : '#' ∉ b) : splitTag (x ++ '#' :: b) = x := by
  unfold splitTag
  rw [if_pos (by simp), List.reverse_append, List.reverse_cons, List.append_assoc]
  have : ∀ l : Str, '#' ∉ l → (l ++ (['#'] ++ x.reverse)).dropWhile (· != '#') = '#' :: x.reverse := by
    intro l
    induction l with
    | nil => intro _; simp
    | cons a t ih =>
      intro h
      simp only [List.mem_cons, not_or] at h
      rw [List.cons_append, List.dropWhile_cons_of_pos (by simpa using fun e => h.1 e.symm)]
      exact ih h.2
  rw [this _ (by simpa using hb)]
  simp

theorem withScheme_fragment {uw : Char → Bool} {a b : Str} (h : WithScheme uw (a ++ '#' :: b)) : WithScheme uw a := by
  obtain ⟨w, rest, e, hw, hall⟩ := h
  have hno : isWord uw '#' = false := by unfold isWord; rw [if_pos (by decide)]; decide
  rcases List.append_eq_append_iff.mp e with ⟨d, h1, h2⟩ | ⟨d, h1, h2⟩
  · cases d with
    | nil => simp at h2
    | cons c d =>
      simp only [List.cons_append, List.cons.injEq] at h2
      have := hall c (by rw [h1]; simp)
      rw [← h2.1, hno] at this; cases this
  · cases d with
    | nil => simp at h2
    | cons c d =>
      simp only [List.cons_append, List.cons.injEq] at h2
      exact ⟨w, d, by rw [h1, h2.1], hw, hall⟩

/-- C100, '#'.  A name with '#' opens the file whose name is what is before the last '#'. -/
theorem C100_fragment (uw : Char → Bool) {dec : List UInt8 → Str} (D : Decodes dec) (a b : Str) (hs : ¬ WithScheme uw a)
    (hh : ¬ "//".toList <+: a) (he : ¬ Escaped a) (hb : '#' ∉ b) : openedFile uw dec (a ++ '#' :: b) = some a := by
  unfold openedFile
  rw [openUrl_noScheme (fun h => hs (withScheme_fragment h))]
  refine fileOf_rest D ?_ hh he
  obtain ⟨b', hp, e⟩ := rstrip_keep (x := "file:".toList ++ a) (b := b) (c := '#') (by decide)
  have e0 : strip ("file:".toList ++ (a ++ '#' :: b)) = "file:".toList ++ a ++ '#' :: b' := by
    unfold strip
    have ed : ("file:".toList ++ (a ++ '#' :: b)).dropWhile isSpace = "file:".toList ++ (a ++ '#' :: b) := rfl
    rw [ed, ← List.append_assoc, e]
  have hu : unwrapUrl ("file:".toList ++ (a ++ '#' :: b)) = "file:".toList ++ a ++ '#' :: b' := by
    unfold unwrapUrl
    rw [e0]
    dsimp only
    have h1 : ¬ (("file:".toList ++ a ++ '#' :: b').head? = some '<' ∧ ("file:".toList ++ a ++ '#' :: b').getLast? = some '>') := by
      rintro ⟨h, -⟩
      have h : some 'f' = some '<' := h
      simp at h
    rw [if_neg h1, if_neg]
    rintro ⟨r, h⟩
    have h : 'U' :: ("RL:".toList ++ r) = 'f' :: ("ile:".toList ++ a ++ '#' :: b') := h
    simp at h
  rw [hu, splitTag_last (fun h => hb (hp.subset h))]

theorem file_scheme (uw : Char → Bool) (t : Str) : WithScheme uw ("file:".toList ++ t) := by
  refine ⟨"file".toList, t, rfl, by decide, ?_⟩
  intro c hc
  have : ∀ c ∈ "file".toList, c.toNat < 128 := by decide
  have e : ∀ c ∈ "file".toList, isWord (fun _ => false) c = isWord uw c := by
    intro c hc
    unfold isWord
    rw [if_pos (this c hc), if_pos (this c hc)]
  rw [← e c hc]
  revert c
  decide

/-- C100, URIs.  The URI file:// followed by an absolute path opens the file with this path, unless the path has a '#', an
escape, or a blank character at the end: paths are not quoted when URIs are made of them. -/
theorem C100_uri (uw : Char → Bool) {dec : List UInt8 → Str} (D : Decodes dec) (p : Str) (hf : '#' ∉ p) (he : ¬ Escaped ('/' :: p))
    (hb : ∀ t c, p = t ++ [c] → isSpace c = false) : openedFile uw dec ("file://".toList ++ '/' :: p) = some ('/' :: p) := by
  have hs : openUrl uw ("file://".toList ++ '/' :: p) = "file:".toList ++ ("//".toList ++ '/' :: p) := by
    unfold openUrl
    rw [if_pos]
    · rfl
    · rw [hasScheme_iff]
      exact file_scheme uw _
  unfold openedFile
  rw [hs]
  unfold fileOfUrl
  have hst : strip ("file:".toList ++ ("//".toList ++ '/' :: p)) = "file:".toList ++ ("//".toList ++ '/' :: p) := by
    refine strip_file ?_
    intro t c e
    rcases List.eq_nil_or_concat p with rfl | ⟨t', c', rfl⟩
    · have e : "//".toList ++ ['/'] = t ++ [c] := e
      have := List.append_inj_right' e rfl
      simp only [List.cons.injEq, and_true] at this
      rw [← this]; decide
    · have e : ("//".toList ++ '/' :: t') ++ [c'] = t ++ [c] := by rw [← e]; simp
      have := List.append_inj_right' e rfl
      simp only [List.cons.injEq, and_true] at this
      rw [← this]
      exact hb t' c' (by simp)
  rw [unwrap_file (u := "file:".toList ++ ("//".toList ++ '/' :: p)) rfl hst, splitTag_none (by simpa using hf), splitType_file]
  dsimp only
  rw [if_pos rfl]
  have hsh : splitHost ("//".toList ++ '/' :: p) = ([], '/' :: p) := rfl
  rw [hsh]
  dsimp only
  rw [if_pos (Or.inl (unquote_nil dec)), unquote_plain D he]

/-- C100, reading back.  A list is written (in one document or in several) over files that hold documents or something that is not XML.
Whoever opens a file with a plain name finds what the model of files says: each document completely written. -/
theorem C100_read_back_partial {l : LBI} (env : StatEnv) (basename : Str) (hmd : AttNames l.md) (hln : ∀ x ∈ l.ln, AttNames x)
    (hrs : ∀ x ∈ EntryLinks l.resources, AttNames x) {enc : Str} (henc : Utf8Name enc) (fs : Str → Option FileState)
    (disk : Str → Option Bytes) (hdisk : ∀ f, HoldsBytes l.sitemap enc (fs f) (disk f))
    (uw : Char → Bool) {dec : List UInt8 → Str} (D : Decodes dec) (f : Str) (hf : PlainFileName uw f) :
    docsOf (fun u => (openedFile uw dec u).bind (runBytes l.sitemap enc disk (l.write env basename).1)) f =
      fileDoc (runFs fs (l.write env basename).1 f) := by
  unfold docsOf
  dsimp only
  rw [(C100_exact uw D f).mpr hf, Option.bind_some]
  exact C98_files henc (holds_run _ (fun f doc h => write_written env basename hmd hln hrs h) fs disk hdisk f)

/-- resources are copied from local files: a reply has the content of the file that the URI opens -/
def LocalSource (uw : Char → Bool) (dec : List UInt8 → Str) (files : Str → Option Bytes) (env : Env) : Prop :=
  ∀ tr u b, env.serve tr u = .body b none → (openedFile uw dec u).bind files = some b

/-- the path of a file of the directory -/
def localPath (m : Map) (names : List Str) : Str := m.dst_path ++ '/' :: join ['/'] names

/-- C100, local sources.  A client copies resources of a directory by their URIs with file://.  If the paths of the
files have no '#', no escape and no blank character at their ends, it gets the contents of these files. -/
theorem C100_source_partial (c : WriteCfg) (m : Map) (cs : List FNode) (env : Env) (uw : Char → Bool) {dec : List UInt8 → Str} (D : Decodes dec)
    (files : Str → Option Bytes) (hsrc : LocalSource uw dec files env)
    (hdir : ∀ names st, Eligible (ExcludedBy c) cs names st → files (localPath m names) = st.content)
    (hm : m.src_uri = "file://".toList ++ m.dst_path) (habs : ∃ d, m.dst_path = '/' :: d)
    (hplain : ∀ names st, Eligible (ExcludedBy c) cs names st → '#' ∉ localPath m names ∧ ¬ Escaped (localPath m names) ∧
      ∀ t ch, localPath m names = t ++ [ch] → isSpace ch = false) :
    Honest c m cs env := by
  intro tr names st b he hserve
  have h1 := hsrc _ _ _ hserve
  obtain ⟨d, hd⟩ := habs
  obtain ⟨p1, p2, p3⟩ := hplain names st he
  have e : localPath m names = '/' :: (d ++ '/' :: join ['/'] names) := by unfold localPath; rw [hd]; rfl
  have e2 : siteUri m names = "file://".toList ++ '/' :: (d ++ '/' :: join ['/'] names) := by
    unfold siteUri; rw [hm, hd]; simp
  rw [e2, C100_uri uw D _ (fun h => p1 (by rw [e]; simp [h])) (by rw [← e]; exact p2)
    (fun t ch h => p3 ('/' :: t) ch (by rw [e, h]; rfl)), Option.bind_some, ← e, hdir names st he] at h1
  exact h1

theorem decode_short (b : List UInt8) (s : Str) (h : utf8Decode b = some s) : s.length ≤ b.length := by
  rw [← utf8_encode_decode b s h]
  clear h
  induction s with
  | nil => simp
  | cons c t ih =>
    have h1 : utf8Encode (c :: t) = utf8Char c ++ utf8Encode t := by simp [utf8Encode]
    have h2 : 1 ≤ (utf8Char c).length := by unfold utf8Char; dsimp only; split_ifs <;> simp
    rw [h1, List.length_append, List.length_cons]
    omega

namespace FileNamesExample

/-- a decoder: nothing remains of what is not UTF-8 -/
def dec (b : List UInt8) : Str := (utf8Decode b).getD []

theorem decodes : Decodes dec where
  valid := fun s => by unfold dec; rw [utf8_decode_encode]; rfl
  short := fun b => by
    unfold dec
    cases h : utf8Decode b with
    | none => simp
    | some s => exact decode_short b s h

/-- a plain name, one with a '?' and one with '%' -/
example : ∀ name ∈ ["/tmp/sm é/list.xml".toList, "list?.xml".toList, "100%.xml".toList, "a/b:c.xml".toList], PlainFileName (fun _ => false) name := by
  intro name h
  rw [← C100_exact _ decodes]
  revert name
  decide +kernel

/-- other names -/
example : openedFile (fun _ => false) dec "/d/a#1.xml".toList = some "/d/a".toList ∧
    openedFile (fun _ => false) dec "/d/100%25.xml".toList = some "/d/100%.xml".toList ∧
    openedFile (fun _ => false) dec "/d/%C3%A9%41é".toList = some "/d/éAé".toList ∧
    openedFile (fun _ => false) dec "a:b.xml".toList = none ∧
    openedFile (fun _ => false) dec "//host/a.xml".toList = none ∧
    openedFile (fun _ => false) dec "///a.xml".toList = some "/a.xml".toList ∧
    openedFile (fun _ => false) dec "a.xml ".toList = some "a.xml".toList ∧
    openedFile (fun _ => false) dec "file://localhost/a.xml".toList = some "/a.xml".toList ∧
    openedFile (fun _ => false) dec "http://h/a.xml".toList = none := by decide +kernel

def list : LBI := { resources := [{ uri := "http://h/x".toList }], mapper := some [⟨"http://h".toList, "/d".toList⟩] }

def env : StatEnv := { mtime := fun _ => 0, md5 := fun _ => [] }

/-- the files after the list was written to /d/list#1.xml -/
def after : Str → Option Bytes := runBytes list.sitemap "utf-8".toList (fun _ => none) (list.write env "/d/list#1.xml".toList).1

def sta : Stat := { mtime := 5, size := 2, content := some [1, 2] }
def stb : Stat := { mtime := 7, size := 1, content := some [9] }

/-- the directory /d with the files a and a#b -/
def tree : List FNode := [.file "a".toList false (some sta), .file "a#b".toList false (some stb)]
def m : Map := { src_uri := "file:///d".toList, dst_path := "/d".toList }
def cfg : WriteCfg := { mapper := [m] }
def files (f : Str) : Option Bytes := if f = "/d/a".toList then some [1, 2] else if f = "/d/a#b".toList then some [9] else none

/-- a client that copies from these files -/
def source (uw : Char → Bool) (dec : List UInt8 → Str) : Env :=
  { ClientExample.env [] [] [] with
    serve := fun _ u => match (openedFile uw dec u).bind files with | some b => .body b none | none => .fail .io }

theorem source_serve (uw : Char → Bool) (dec : List UInt8 → Str) (tr : List Effect) (u : Str) : (source uw dec).serve tr u =
    (match (openedFile uw dec u).bind files with | some b => .body b none | none => .fail .io) := rfl

theorem source_local (uw : Char → Bool) (dec : List UInt8 → Str) : LocalSource uw dec files (source uw dec) := by
  intro tr u b h
  have h : (match (openedFile uw dec u).bind files with | some b => Reply.body b none | none => .fail .io) = .body b none := h
  split at h
  · rename_i b' e
    cases h
    exact e
  · cases h

theorem eligible_cases {names : List Str} {st : Stat} (h : Eligible (ExcludedBy cfg) tree names st) :
    (names = ["a".toList] ∧ st = sta) ∨ (names = ["a#b".toList] ∧ st = stb) := by
  obtain ⟨⟨nm, sp, h⟩, -⟩ := h
  cases h with
  | here h =>
    simp only [tree, List.mem_cons, List.not_mem_nil, or_false] at h
    rcases h with h | h <;> cases h <;> simp [FNode.name]
  | sub h _ => simp [tree] at h

theorem not_honest (uw : Char → Bool) {dec : List UInt8 → Str} (D : Decodes dec) : ¬ Honest cfg m tree (source uw dec) := by
  intro h
  have he : Eligible (ExcludedBy cfg) tree ["a#b".toList] stb := by
    refine ⟨⟨_, _, .here (n := .file "a#b".toList false (some stb)) (by simp [tree])⟩, ?_⟩
    rintro c - ⟨p, hp, -⟩
    simp [cfg] at hp
  have hf : openedFile uw dec "file:///d/a#b".toList = some "/d/a".toList := by
    have hs : openUrl uw "file:///d/a#b".toList = "file:///d/a#b".toList := by
      unfold openUrl
      rw [if_pos]
      rw [hasScheme_iff]
      exact file_scheme uw _
    unfold openedFile fileOfUrl
    have h1 : splitTag (unwrapUrl "file:///d/a#b".toList) = "file:".toList ++ "///d/a".toList := by decide
    have h2 : splitHost "///d/a".toList = ([], "/d/a".toList) := by decide
    rw [hs, h1, splitType_file]
    dsimp only
    rw [if_pos rfl, h2]
    dsimp only
    rw [if_pos (Or.inl (unquote_nil dec)), unquote_plain D (by rw [← hasEscape_iff]; decide)]
  have h1 : (source uw dec).serve [] (siteUri m ["a#b".toList]) = .body [1, 2] none := by
    have e : siteUri m ["a#b".toList] = "file:///d/a#b".toList := by decide
    have e2 : files "/d/a".toList = some [1, 2] := by decide
    rw [source_serve, e, hf, Option.bind_some, e2]
  have := h [] _ _ _ he h1
  revert this
  decide

/-- without the file a#b the client gets what it should -/
def tree1 : List FNode := [.file "a".toList false (some sta)]

example (uw : Char → Bool) : Honest cfg m tree1 (source uw FileNamesExample.dec) := by
  have hel : ∀ names st, Eligible (ExcludedBy cfg) tree1 names st → names = ["a".toList] ∧ st = sta := by
    rintro names st ⟨⟨nm, sp, h⟩, -⟩
    cases h with
    | here h =>
      simp only [tree1, List.mem_cons, List.not_mem_nil, or_false] at h
      cases h; simp [FNode.name]
    | sub h _ => simp [tree1] at h
  refine C100_source_partial cfg m tree1 _ uw decodes files (source_local uw FileNamesExample.dec) ?_ rfl ⟨_, rfl⟩ ?_
  · intro names st h
    obtain ⟨rfl, rfl⟩ := hel names st h
    decide
  · intro names st h
    obtain ⟨rfl, rfl⟩ := hel names st h
    have e : localPath m ["a".toList] = "/d/".toList ++ ['a'] := by decide
    refine ⟨by decide, by rw [← hasEscape_iff]; decide, ?_⟩
    intro t ch h
    rw [e] at h
    have := List.append_inj_right' h rfl
    simp only [List.cons.injEq, and_true] at this
    rw [← this]; decide

end FileNamesExample

open FileNamesExample in
/-- C100, names that are not plain.  A list is written to a file and cannot be read back under the same name; a client that copies a
directory by file:// URIs gets the content of another file. -/
theorem C100_violated (uw : Char → Bool) {dec : List UInt8 → Str} (D : Decodes dec) :
    (∃ (l : LBI) (env : StatEnv) (name : Str), (l.write env name).2 = .ok () ∧
      (runBytes l.sitemap "utf-8".toList (fun _ => none) (l.write env name).1 name).isSome = true ∧
      docsOf (fun u => (openedFile uw dec u).bind (runBytes l.sitemap "utf-8".toList (fun _ => none) (l.write env name).1)) name = none) ∧
    ∃ c m cs env files, LocalSource uw dec files env ∧
      (∀ names st, Eligible (ExcludedBy c) cs names st → files (localPath m names) = st.content) ∧
      m.src_uri = "file://".toList ++ m.dst_path ∧ (∃ d, m.dst_path = '/' :: d) ∧ ¬ Honest c m cs env := by
  refine ⟨⟨list, env, "/d/list#1.xml".toList, by decide +kernel, by decide +kernel, ?_⟩, cfg, m, tree, source uw dec, files, source_local uw dec, ?_, rfl, ⟨_, rfl⟩, ?_⟩
  · unfold docsOf
    dsimp only
    have e : openedFile uw dec "/d/list#1.xml".toList = some "/d/list".toList := by
      refine C100_fragment uw D "/d/list".toList "1.xml".toList ?_ (by decide) ?_ (by decide)
      · rintro ⟨w, rest, e, hw, hall⟩
        cases w with
        | nil => exact hw rfl
        | cons c w =>
          have e : '/' :: "d/list".toList = c :: (w ++ ':' :: rest) := e
          simp only [List.cons.injEq] at e
          have := hall c (by simp)
          rw [← e.1] at this
          have hno : isWord uw '/' = false := by unfold isWord; rw [if_pos (by decide)]; decide
          rw [hno] at this; cases this
      · rw [← hasEscape_iff]; decide
    rw [e, Option.bind_some]
    have : runBytes list.sitemap "utf-8".toList (fun _ => none) (list.write env "/d/list#1.xml".toList).1 "/d/list".toList = none := by decide +kernel
    rw [this]; rfl
  · intro names st h
    rcases eligible_cases h with ⟨rfl, rfl⟩ | ⟨rfl, rfl⟩ <;> decide
  · exact not_honest uw D

end Resync
