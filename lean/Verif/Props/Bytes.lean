import Verif.Spec.Bytes
import Verif.Proofs.Utf8
import Verif.Props.Text
import Verif.Props.Mirror
import Verif.Model.Scripts
import Mathlib.Tactic.Tauto
/-
C98: documents as bytes, in files and on their way to a client.
-/

namespace Resync
open Py Resync.Spec

theorem utf8Name_encoding {enc : Str} (h : Utf8Name enc) : EncodingName enc := by
  rcases h with rfl | rfl <;> unfold EncodingName <;> decide

theorem readBytes_encode (text : Str) : readBytes (utf8Encode text) = readXml text := by
  unfold readBytes
  rw [utf8_decode_encode]
  rfl

theorem documentBytes_ok {s : Sitemap} {enc : Str} {md : Dict Str} {ln : List Link} {rs : List Resource} {index : Bool} {b : Bytes} :
    documentBytes s enc md ln rs index = .ok b ↔ ∃ doc, resourcesAsXml s md ln rs index = .ok doc ∧ b = bytesOf s enc doc := by
  unfold documentBytes documentText
  cases resourcesAsXml s md ln rs index with
  | error e => simp
  | ok doc =>
    simp only [ebind_ok, epure, Except.ok.injEq, exists_eq_left']
    exact eq_comm

/-- C98, round trip.  The bytes written to a file in UTF-8 are read as what the document records of the resources, metadata and links
(see C34, C95). -/
theorem C98_round_trip (s : Sitemap) (enc : Str) (henc : Utf8Name enc) (md : Dict Str) (ln : List Link) (rs : List Resource) (index : Bool)
    (hmd : MdOk (mdAttKeys s) md) (hln : ∀ l ∈ ln, LinkOk l) (hrs : ∀ r ∈ rs, ResOk r)
    (cap : Option Str) (hcap : ∀ c, cap = some c → dget md "capability".toList = some c)
    (want : Option Bool) (hwant : want = none ∨ want = some index) :
    ∃ b c, documentBytes s enc md ln rs index = .ok b ∧
      parseBytes s listAdd { resources := [] } b cap want = .ok (c, index, rs.length) ∧
      List.Forall₂ (Recorded s.spec_1_0 s.add_lastmod) rs c.resources ∧ SameMap md c.md ∧ SameLinks ln c.ln := by
  obtain ⟨text, c, h1, h2, h3⟩ := C95_round_trip s enc (utf8Name_encoding henc) md ln rs index hmd hln hrs cap hcap want hwant
  refine ⟨utf8Encode text, c, ?_, ?_, h3⟩
  · unfold documentBytes
    rw [h1, ebind_ok]; rfl
  · unfold parseBytes
    rw [utf8_decode_encode]
    exact h2

theorem readBytes_written {s : Sitemap} {enc : Str} (henc : Utf8Name enc) {doc : Elem} (h : Written s doc) :
    readBytes (bytesOf s enc doc) = reparse doc := by
  obtain ⟨md, ln, rs, index, h1, h2, h3, h4⟩ := h
  unfold bytesOf
  rw [readBytes_encode]
  exact C95_text_is_document (utf8Name_encoding henc) h1 h2 h3 h4 (by rw [documentText, h4, ebind_ok]; rfl)

theorem decode_cut {s : Sitemap} {enc : Str} {doc : Elem} {p : Bytes} (hp : CutOffBytes p (bytesOf s enc doc)) {text : Str}
    (ht : utf8Decode p = some text) : CutOff text (writeXml enc (sitemapTails s) doc) := by
  obtain ⟨q, hq, e⟩ := hp
  obtain ⟨rest, hr⟩ := utf8_prefix (s := writeXml enc (sitemapTails s) doc) ⟨q, e.symm⟩ ht
  refine ⟨rest, ?_, hr.symm⟩
  rintro rfl
  rw [List.append_nil] at hr
  subst hr
  have := utf8_encode_decode p _ ht
  unfold bytesOf at e
  rw [this] at e
  have hl := congrArg List.length e
  rw [List.length_append] at hl
  exact hq (List.length_eq_zero_iff.mp (by omega))

theorem readXml_cut {s : Sitemap} {enc : Str} (henc : Utf8Name enc) {doc : Elem} (h : Written s doc) {p : Str}
    (hp : CutOff p (writeXml enc (sitemapTails s) doc)) : readXml p = none := by
  obtain ⟨md, ln, rs, index, a1, a2, a3, a4⟩ := h
  obtain ⟨q, hq, hw⟩ := hp
  obtain ⟨h1, h2, -, -⟩ := resourcesAsXml_tree a4 a1 a2 a3
  have hr := readRaw_cut (encodingName_ok (utf8Name_encoding henc)) (sitemapTails s) (treeNames_namesOk doc h1 h2) hw hq
  rw [readXml, hr]; rfl

theorem readBytes_cut {s : Sitemap} {enc : Str} (henc : Utf8Name enc) {doc : Elem} (h : Written s doc) {p : Bytes}
    (hp : CutOffBytes p (bytesOf s enc doc)) : readBytes p = none := by
  unfold readBytes
  cases ht : utf8Decode p with
  | none => rfl
  | some text => exact readXml_cut henc h (decode_cut hp ht)

/-- C98, cut off.  The bytes of a document that end anywhere before its end, also in the middle of a character, are refused: no
entries, never a shorter list. -/
theorem C98_cut_off {s : Sitemap} {enc : Str} (henc : Utf8Name enc) {md : Dict Str} {ln : List Link} {rs : List Resource} {index : Bool}
    (hmd : AttNames md) (hln : ∀ l ∈ ln, AttNames l) (hrs : ∀ l ∈ EntryLinks rs, AttNames l) {b p : Bytes}
    (hb : documentBytes s enc md ln rs index = .ok b) (hp : CutOffBytes p b)
    {σ : Type} (s' : Sitemap) (add : σ → Resource → Except SmErr σ) (c : Cont σ) (cap : Option Str) (want : Option Bool) :
    parseBytes s' add c p cap want = .error .notXml := by
  obtain ⟨doc, hdoc, rfl⟩ := documentBytes_ok.mp hb
  unfold parseBytes
  cases ht : utf8Decode p with
  | none => rfl
  | some text =>
    have := readXml_cut henc ⟨md, ln, rs, index, hmd, hln, hrs, hdoc⟩ (decode_cut hp ht)
    show parseText s' add c text cap want = _
    rw [parseText, this]

theorem docsOf_unavailable {bytesAt : Str → Option Bytes} {u : Str} (h : Unavailable bytesAt u) : docsOf bytesAt u = none := by
  unfold docsOf
  rcases h with h | ⟨p, s, enc, doc, h, h1, h2, h3⟩
  · rw [h]; rfl
  · rw [h, Option.bind_some, readBytes_cut h1 h2 h3]

/-- C98, files.  Whatever the state of a file of documents, readers of its bytes get the document if it is complete, and nothing
otherwise. -/
theorem C98_files {s : Sitemap} {enc : Str} (henc : Utf8Name enc) {st : Option FileState} {content : Option Bytes}
    (h : HoldsBytes s enc st content) : content.bind readBytes = fileDoc st := by
  cases h with
  | missing => rfl
  | other p hp =>
    rw [Option.bind_some, hp]
    rfl
  | part doc p hd hc =>
    rw [Option.bind_some, readBytes_cut henc hd hc]
    rfl
  | whole doc hd =>
    rw [Option.bind_some, readBytes_written henc hd]
    rfl

/-- C98, crash points.  While documents are being written (any events `pre` so far, and any part of the bytes of the document that is
being written), a reader of a file gets what was there before, nothing, or a document that was completely written. -/
theorem C98_crash {s : Sitemap} {enc : Str} (henc : Utf8Name enc) (fs : Str → Option FileState) (pre : List FsEff) (disk : Str → Option Bytes)
    (hdisk : ∀ f, HoldsBytes s enc (runFs fs pre f) (disk f)) (f : Str) :
    (disk f).bind readBytes = fileDoc (fs f) ∨ (disk f).bind readBytes = none ∨
      ∃ doc, FsEff.finish f doc ∈ pre ∧ (disk f).bind readBytes = reparse doc := by
  rw [C98_files henc (hdisk f)]
  exact runFs_reader fs pre f

theorem attNames_dset {d : Dict Str} {k v : Str} (h : AttNames d) (hk : isXmlName k = true) : AttNames (dset d k v) := by
  intro x hx
  rcases (mem_dkeys_dset _ _ _ _).mp hx with rfl | hx
  · exact hk
  · exact h x hx

theorem attNames_capability {d : Dict Str} {cap : Option Str} (h : AttNames d) : AttNames (defaultCapability d cap) := by
  unfold defaultCapability
  split
  · exact attNames_dset h (by decide)
  · exact h

theorem attNames_updateFirst {ln : List Link} {uri : Str} (h : ∀ l ∈ ln, AttNames l) :
    ∀ l ∈ updateFirst ln sIndex (fun l => addAtts (dset l sHref uri) []), AttNames l := by
  induction ln with
  | nil => intro l hl; simp [updateFirst] at hl
  | cons a t ih =>
    intro l hl
    simp only [updateFirst] at hl
    split at hl
    · rcases List.mem_cons.mp hl with rfl | hl
      · exact attNames_dset (h a (by simp)) (by decide)
      · exact h l (by simp [hl])
    · rcases List.mem_cons.mp hl with rfl | hl
      · exact h _ (by simp)
      · exact ih (fun l hl => h l (by simp [hl])) l hl

theorem attNames_index {ln : List Link} {uri : Str} (h : ∀ l ∈ ln, AttNames l) : ∀ l ∈ setIndexLink ln uri, AttNames l := by
  unfold setIndexLink linkSetList
  split
  · exact attNames_updateFirst h
  · intro l hl
    rcases List.mem_append.mp hl with hl | hl
    · exact h l hl
    · rw [List.mem_singleton] at hl
      subst hl
      have e : dkeys (addAtts [(sRel, sIndex), (sHref, uri)] []) = [sRel, sHref] := rfl
      unfold AttNames
      rw [e]
      decide

theorem chunkLoop_mem (max : Nat) (r : Resource) : ∀ (it chunk : List Resource),
    (r ∈ (chunkLoop max chunk it).1 ∨ r ∈ (chunkLoop max chunk it).2) → r ∈ chunk ∨ r ∈ it := by
  intro it
  induction it with
  | nil => intro chunk h; simpa [chunkLoop] using h
  | cons a t ih =>
    intro chunk h
    rw [chunkLoop] at h
    split at h
    · simp only [List.mem_append, List.mem_singleton] at h
      simp only [List.mem_cons]; tauto
    · have := ih _ h
      simp only [List.mem_append, List.mem_singleton] at this
      simp only [List.mem_cons]; tauto

theorem chunk_mem {max : Option Nat} {it : List Resource} {first : Option Resource} {chunk it' : List Resource} {nxt : Option Resource}
    (h : getResourcesChunk max it first = .ok (chunk, nxt, it')) (r : Resource) (hr : r ∈ chunk ∨ r ∈ nxt.toList ∨ r ∈ it') :
    r ∈ first.toList ∨ r ∈ it := by
  unfold getResourcesChunk at h
  split at h
  · cases h
  · cases h
    rcases hr with hr | hr | hr
    · exact .inl hr
    · cases hr
    · cases hr
  · rename_i m
    have hm := chunkLoop_mem m r it first.toList
    split at h <;> rename_i e <;> cases h <;> rw [e] at hm
    · rcases hr with hr | hr | hr
      · exact hm (.inl hr)
      · cases hr
      · cases hr
    · simp only [Option.toList, List.mem_cons] at hr hm
      tauto

theorem writeDoc_written {s : Sitemap} {file : Str} {md : Dict Str} {ln : List Link} {rs : List Resource} {index : Bool}
    (h1 : AttNames md) (h2 : ∀ l ∈ ln, AttNames l) (h3 : ∀ l ∈ EntryLinks rs, AttNames l) {f : Str} {doc : Elem}
    (h : FsEff.finish f doc ∈ (writeDoc file (resourcesAsXml s md ln rs index)).1) : Written s doc := by
  unfold writeDoc at h
  split at h
  · simp at h
  · rename_i t ht
    simp at h
    rw [h.2]
    exact ⟨md, ln, rs, index, h1, h2, h3, ht⟩

theorem entryLinks_sub {rs : List Resource} (P : Resource → Prop) (hP : ∀ r, P r → ∀ l ∈ r.ln.getD [], AttNames l)
    (h : ∀ r ∈ rs, P r) : ∀ l ∈ EntryLinks rs, AttNames l := by
  intro l hl
  obtain ⟨r, hr, hl⟩ := List.mem_flatMap.mp hl
  exact hP r (h r hr) l hl

theorem writeParts_written {l : LBI} {env : StatEnv} {basename index_uri : Str} (hmd : AttNames l.md) (hln : ∀ x ∈ l.ln, AttNames x)
    (P : Resource → Prop) (hP : ∀ r, P r → ∀ x ∈ r.ln.getD [], AttNames x) :
    ∀ (n : Nat) (chunk : List Resource) (nxt : Option Resource) (it index : List Resource),
    (∀ r ∈ chunk, P r) → (∀ r ∈ nxt.toList, P r) → (∀ r ∈ it, P r) → (∀ r ∈ index, r.ln = none) →
    (∀ f doc, FsEff.finish f doc ∈ (writeParts l env basename index_uri n chunk nxt it index).1 → Written l.sitemap doc) ∧
    ∀ index', (writeParts l env basename index_uri n chunk nxt it index).2 = .ok index' → ∀ r ∈ index', r.ln = none := by
  intro n
  induction n with
  | zero => intro chunk nxt it index _ _ _ _; exact ⟨fun f doc h => (by simp [writeParts] at h), fun _ h => by cases h⟩
  | succ n ih =>
    intro chunk nxt it index h1 h2 h3 h4
    rw [writeParts]
    split
    · exact ⟨fun f doc h => (by simp at h), fun index' h => by cases h; exact h4⟩
    · dsimp only
      split
      · exact ⟨fun f doc h => (by simp at h), fun _ h => by cases h⟩
      · rename_i uri _
        have hw := fun f doc => writeDoc_written (s := l.sitemap) (file := partName basename index.length) (index := false) (f := f) (doc := doc)
          (attNames_capability (cap := l.capability_name) hmd) (attNames_index (uri := index_uri) hln) (entryLinks_sub P hP h1)
        split
        · rename_i e; rw [e] at hw
          exact ⟨hw, fun _ h => by cases h⟩
        · rename_i effs e; rw [e] at hw
          split
          · exact ⟨hw, fun _ h => by cases h⟩
          · rename_i chunk' nxt' it' hc
            have hall : ∀ r, (r ∈ chunk' ∨ r ∈ nxt'.toList ∨ r ∈ it') → P r := by
              intro r hr
              rcases chunk_mem hc r hr with h | h
              · exact h2 r h
              · exact h3 r h
            obtain ⟨i1, i2⟩ := ih chunk' nxt' it'
              (index ++ [{ uri := uri, timestamp := some (env.mtime (partName basename index.length)), md5 := some (env.md5 (partName basename index.length)) }])
              (fun r hr => hall r (.inl hr)) (fun r hr => hall r (.inr (.inl hr))) (fun r hr => hall r (.inr (.inr hr)))
              (by
                intro r hr
                rcases List.mem_append.mp hr with hr | hr
                · exact h4 r hr
                · rw [List.mem_singleton] at hr; rw [hr])
            refine ⟨?_, i2⟩
            intro f doc h
            rcases List.mem_append.mp h with h | h
            · exact hw f doc h
            · exact i1 f doc h

/-- every document that writing a list finishes is one of those `Written` speaks of -/
theorem write_written {l : LBI} (env : StatEnv) (basename : Str) (hmd : AttNames l.md) (hln : ∀ x ∈ l.ln, AttNames x)
    (hrs : ∀ x ∈ EntryLinks l.resources, AttNames x) {f : Str} {doc : Elem} (h : FsEff.finish f doc ∈ (l.write env basename).1) :
    Written l.sitemap doc := by
  have hP : ∀ r, r ∈ l.resources → ∀ x ∈ r.ln.getD [], AttNames x :=
    fun r hr x hx => hrs x (List.mem_flatMap.mpr ⟨r, hr, hx⟩)
  unfold LBI.write at h
  split at h
  · simp at h
  · rename_i chunk nxt it hc
    have hall : ∀ r, (r ∈ chunk ∨ r ∈ (some nxt).toList ∨ r ∈ it) → r ∈ l.resources := by
      intro r hr
      rcases chunk_mem hc r hr with h | h
      · cases h
      · exact h
    split at h
    · simp at h
    · split at h
      · simp at h
      · rename_i index_uri _
        obtain ⟨w1, w2⟩ := writeParts_written (env := env) (basename := basename) (index_uri := index_uri) hmd hln (· ∈ l.resources) hP
          (l.resources.length + 1) chunk (some nxt) it [] (fun r hr => hall r (.inl hr)) (fun r hr => hall r (.inr (.inl hr)))
          (fun r hr => hall r (.inr (.inr hr))) (by simp)
        split at h
        · rename_i e; rw [e] at w1; exact w1 f doc h
        · rename_i effs index e; rw [e] at w1 w2
          rcases List.mem_append.mp h with h | h
          · exact w1 f doc h
          · refine writeDoc_written (attNames_capability hmd) ?_ ?_ h
            · unfold sharedIndexLink
              split
              · exact attNames_index hln
              · exact hln
            · exact entryLinks_sub (fun r => r.ln = none) (fun r hr x hx => by rw [hr] at hx; simp at hx) (w2 index rfl)
  · rename_i chunk it hc
    refine writeDoc_written (attNames_capability hmd) hln (entryLinks_sub (· ∈ l.resources) hP ?_) h
    intro r hr
    rcases chunk_mem hc r (.inl hr) with h | h
    · cases h
    · exact h

theorem written_empty (s : Sitemap) : ∃ doc, Written s doc :=
  have ⟨doc, h⟩ : ∃ doc, resourcesAsXml s [] [] [] false = .ok doc := ⟨_, rfl⟩
  ⟨doc, [], [], [], false, (fun k hk => by cases hk), by simp, by simp [EntryLinks], h⟩

theorem bytesOf_ne (s : Sitemap) (enc : Str) (doc : Elem) : bytesOf s enc doc ≠ [] := by
  intro h
  unfold bytesOf at h
  have := utf8_decode_encode (writeXml enc (sitemapTails s) doc)
  rw [h] at this
  have e : writeXml enc (sitemapTails s) doc = [] := by
    simpa [utf8Decode] using this.symm
  unfold writeXml at e
  simp [xmlDecl] at e

/-- what the bytes on the disk are, seen as states of files, after writing documents -/
theorem holds_run {s : Sitemap} {enc : Str} (effs : List FsEff) (hw : ∀ f doc, FsEff.finish f doc ∈ effs → Written s doc) :
    ∀ (fs : Str → Option FileState) (disk : Str → Option Bytes), (∀ f, HoldsBytes s enc (fs f) (disk f)) →
    ∀ f, HoldsBytes s enc (runFs fs effs f) (runBytes s enc disk effs f) := by
  induction effs with
  | nil => intro fs disk h; exact h
  | cons e t ih =>
    intro fs disk h
    have ht : ∀ f doc, FsEff.finish f doc ∈ t → Written s doc := fun f doc h => hw f doc (by simp [h])
    cases e with
    | openW g =>
      refine ih ht _ _ ?_
      intro f
      by_cases hg : f = g
      · simp only [hg, if_true]
        obtain ⟨doc, hd⟩ := written_empty s
        exact .part doc [] hd ⟨_, bytesOf_ne s enc doc, rfl⟩
      · simp only [if_neg hg]; exact h f
    | finish g d =>
      refine ih ht _ _ ?_
      intro f
      by_cases hg : f = g
      · simp only [hg, if_true]
        exact .whole d (hw g d (by simp))
      · simp only [if_neg hg]; exact h f

/-- C98, publishing.  A list is written (in one document or in several) over files that hold documents or something that is not XML;
the files below a directory are served, as bytes, below a URI.  Whoever reads the bytes served finds what the model
of files says (`Serves`): each document completely written, and nothing elsewhere. -/
theorem C98_publish {m : Map} {l : LBI} (env : StatEnv) (basename : Str) (hmd : AttNames l.md) (hln : ∀ x ∈ l.ln, AttNames x)
    (hrs : ∀ x ∈ EntryLinks l.resources, AttNames x) {enc : Str} (henc : Utf8Name enc) (fs : Str → Option FileState)
    (disk : Str → Option Bytes) (hdisk : ∀ f, HoldsBytes l.sitemap enc (fs f) (disk f)) (bytesAt : Str → Option Bytes)
    (hserve : ∀ g, bytesAt (m.src_uri ++ '/' :: g) = runBytes l.sitemap enc disk (l.write env basename).1 (m.dst_path ++ '/' :: g)) :
    Serves m (runFs fs (l.write env basename).1) (docsOf bytesAt) := by
  intro g
  have := C98_files henc (holds_run (enc := enc) (l.write env basename).1 (fun f doc h => write_written env basename hmd hln hrs h)
    fs disk hdisk (m.dst_path ++ '/' :: g))
  rw [← this, ← hserve g]
  rfl

/-- C98, mirrors.  With the list of a directory written by `write_resource_list` and served as bytes, a client that reads the bytes is in
the situation of C78: its first sync makes a copy of the directory. -/
theorem C98_mirror {c : WriteCfg} {wenv : WriteEnv} {m : Map} {cs : List FNode} (site : Site c wenv m cs) (hmulti : c.allow_multifile = true)
    {f : Str} (hf : TextOk f) {links : Option (List Link)} (hlinks : ∀ x ∈ links.getD [], LinkOk x) (hstat : StatOk wenv.stat)
    (hdots : ∀ names n, Reach cs names n → ∀ x ∈ names, x ≠ ".".toList ∧ x ≠ "..".toList)
    (hscheme : (∃ t, m.src_uri = "http:".toList ++ t) ∨ (∃ t, m.src_uri = "https:".toList ++ t))
    {enc : Str} (henc : Utf8Name enc) (before : Str → Option FileState) (disk : Str → Option Bytes)
    (hdisk : ∀ f, HoldsBytes {} enc (before f) (disk f)) (bytesAt : Str → Option Bytes)
    (hbytes : ∀ g, bytesAt (m.src_uri ++ '/' :: g) =
      runBytes {} enc disk (writeResourceList c wenv none (some (m.dst_path ++ '/' :: f)) links false).1.files (m.dst_path ++ '/' :: g))
    {cc : ClientCfg} {env : Env} {mm : Map} (hsame : mm.src_uri = m.src_uri) (uw : Char → Bool)
    (hsrc : env.sources = Sources.ofDocs (docsOf bytesAt) [mm] true uw) (htold : cc.disc.sitemap_name = some (m.src_uri ++ '/' :: f))
    (hserve : Honest c m cs env) (s : St) (root : Loc) (hone : OneSite cc env.cwd mm root s.world.fs)
    (hh : ∀ t ∈ s.hashes, HashType t) (allow_deletion : Bool)
    (hd : cc.dryrun = false) (hi : cc.ignore_failures = false) (ht : 0 < cc.tries) (hu : ∀ tr l, env.unlinkFails tr l = false)
    (hempty : ∀ l, Within root l → ¬ HasFile s.world.fs l)
    (hok : (baselineOrAudit env cc allow_deletion false s).2 = .ok ()) :
    CopyOf c cs root (baselineOrAudit env cc allow_deletion false s).1.world.fs := by
  obtain ⟨rl, ex, h1, h2, h3, h4, h5⟩ := write_site site links (some (m.dst_path ++ '/' :: f))
  have hs : Serves m (runFs before (writeResourceList c wenv none (some (m.dst_path ++ '/' :: f)) links false).1.files) (docsOf bytesAt) := by
    rw [h5, writeTo_files] at hbytes ⊢
    have e1 : rl.obj.sitemap = {} := by rw [h3]
    have e2 : rl.obj.md = scanTimes wenv := by rw [h3]
    have e3 : rl.obj.ln = [] := by rw [h3]
    refine C98_publish (l := { rl.obj with ln := links.getD rl.obj.ln }) wenv.stat (m.dst_path ++ '/' :: f) ?_ ?_ ?_ henc before disk ?_ bytesAt ?_
    · show AttNames rl.obj.md
      rw [e2]
      have : ∀ k ∈ [kMdAt, kMdCompleted], isXmlName k = true := by decide
      exact this
    · intro x hx
      have hx : x ∈ links.getD rl.obj.ln := hx
      rw [e3] at hx
      exact attNames_of_linkOk (hlinks x hx)
    · intro x hx
      obtain ⟨r, hr, hx⟩ := List.mem_flatMap.mp hx
      have hr : r ∈ rl.obj.resources := hr
      rw [iterAll_listing] at h2
      rw [← Except.ok.inj h2] at hr
      obtain ⟨names, st, -, -, e⟩ := (h4 _ r).mp ((mem_listing h1).mp hr)
      rw [e] at hx
      simp [describes] at hx
    · show ∀ f, HoldsBytes rl.obj.sitemap enc _ _
      rw [e1]; exact hdisk
    · show ∀ g, _ = runBytes rl.obj.sitemap enc _ _ _
      rw [e1]; exact hbytes
  exact C78_mirror (links := links) (before := before)
    ⟨site, hmulti, hf, hlinks, hstat, hdots, hscheme, hsame, ⟨docsOf bytesAt, uw, hsrc, hs⟩, htold⟩ hserve s root hone hh allow_deletion hd hi ht hu hempty hok

theorem readList_none {cfg : ReadCfg} {c : Cont (Dict Resource)} {uri : Str} {index_only : Bool} (h : cfg.docAt uri = none) :
    readList cfg c uri index_only = .error .io := by
  unfold readList
  rw [h]

theorem foldlM_fails {cfg : ReadCfg} {uri : Str} {isfile : Bool} {v : Str}
    (hv : ∀ d, ∃ e, readComponent cfg uri isfile d v = .error e) : ∀ (l : List Str) (d : Dict Resource), v ∈ l →
    ∃ e, l.foldlM (readComponent cfg uri isfile) d = .error e := by
  intro l
  induction l with
  | nil => intro d h; cases h
  | cons a t ih =>
    intro d h
    rw [List.foldlM_cons]
    cases ha : readComponent cfg uri isfile d a with
    | error e => exact ⟨e, rfl⟩
    | ok d' =>
      rcases List.mem_cons.mp h with rfl | h
      · obtain ⟨e, he⟩ := hv d
        rw [ha] at he; cases he
      · exact ih d' h

/-- one document of a list in several is missing: the list cannot be read -/
theorem readList_component {cfg : ReadCfg} {uri v : Str} {root : Elem} {index : Cont (Dict Resource)} {n : Nat}
    (hdoc : cfg.docAt uri = some root) (hparse : parseXml cfg.sitemap rlAdd { resources := [] } root cfg.capability_name none = .ok (index, true, n))
    (hv : v ∈ dkeys index.resources)
    (hno : ∀ w, componentLocation cfg uri v (isFileUri cfg.uw uri) = .ok w → cfg.docAt w = none) :
    ∃ e, readList cfg { resources := [] } uri = .error e := by
  unfold readList
  simp only [hdoc, hparse, liftSm, ebind_ok, if_true, Bool.false_eq_true, if_false]
  split
  · exact ⟨_, rfl⟩
  · have hmem : v ∈ dictUris index.resources := (sortStr_perm _).symm.subset hv
    obtain ⟨e, he⟩ := foldlM_fails (cfg := cfg) (uri := uri) (isfile := isFileUri cfg.uw uri) (v := v) (by
      intro d
      unfold readComponent
      cases hl : componentLocation cfg uri v (isFileUri cfg.uw uri) with
      | error e => exact ⟨e, rfl⟩
      | ok w =>
        refine ⟨.index, ?_⟩
        simp only [ebind_ok, hno w hl]) _ [] hmem
    rw [he]
    exact ⟨e, rfl⟩

theorem baseline_not_found {env : Env} {c : ClientCfg} {allow audit : Bool} {s : St} {e : ClientErr}
    (h : (findResourceList env.sources c.disc).2 = .error e) :
    ∃ e', baselineOrAudit env c allow audit s = (s, .error e') := by
  have : ∃ e', baselinePlan env c audit s = (s, .error e') := by
    unfold baselinePlan
    split
    · exact ⟨_, rfl⟩
    · split
      · exact ⟨_, rfl⟩
      · exact ⟨_, rfl⟩
      · rw [h]; exact ⟨_, rfl⟩
  obtain ⟨e', he⟩ := this
  refine ⟨e', ?_⟩
  unfold baselineOrAudit
  rw [he]

/-- C98, a list that does not arrive.  A client reads its resource list from bytes it finds at a URI: if there are none, or the bytes of
a document were cut off, or this is so for one of the documents of a list in several (whether they are read from a server
or, for a list in a local file, from the place that the mapper gives), the sync fails and nothing has been done: no file is written, and none deleted because it is not in the part of the list that did arrive. -/
theorem C98_list_cut_off (env : Env) (c : ClientCfg) (allow_deletion audit : Bool) (s : St) (bytesAt : Str → Option Bytes)
    (mapper : Mapper) (multifile : Bool) (uw : Char → Bool) (henv : env.sources = Sources.ofDocs (docsOf bytesAt) mapper multifile uw)
    (u : Str) (hu : c.disc.sitemap_name = some u)
    (hcut : Unavailable bytesAt u ∨
      ∃ root index n v, docsOf bytesAt u = some root ∧
        parseXml {} rlAdd { resources := [] } root (some "resourcelist".toList) none = .ok (index, true, n) ∧
        v ∈ dkeys index.resources ∧ Unavailable bytesAt v ∧
        ((∃ t, u = "http:".toList ++ t) ∨ (∃ t, v = "https:".toList ++ t) ∨ ∀ p, mapper.srcToDst v = .ok p → Unavailable bytesAt p)) :
    ∃ e, (baselineOrAudit env c allow_deletion audit s).2 = .error e ∧
      doneBetween s (baselineOrAudit env c allow_deletion audit s).1 = [] ∧
      (baselineOrAudit env c allow_deletion audit s).1.world = s.world := by
  have hread : ∃ e, readList { allow_multifile := multifile, mapper := some mapper, uw := uw, docAt := docsOf bytesAt }
      { resources := [] } u = .error e := by
    rcases hcut with h | ⟨root, index, n, v, h1, h2, h3, h4, h5⟩
    · exact ⟨_, readList_none (docsOf_unavailable h)⟩
    · refine readList_component h1 h2 h3 ?_
      intro w hw
      show docsOf bytesAt w = none
      unfold componentLocation at hw
      dsimp only at hw
      rcases h5 with ⟨t, rfl⟩ | ⟨t, rfl⟩ | h5
      · rw [isFileUri_http, if_neg (by simp)] at hw
        cases hw
        exact docsOf_unavailable h4
      · rw [isFileUri_https] at hw
        split at hw
        · rw [if_neg (by simp), if_neg (by simp)] at hw
          cases hw; exact docsOf_unavailable h4
        · cases hw; exact docsOf_unavailable h4
      · split at hw
        · split at hw
          · cases hp : mapper.srcToDst v with
            | ok p => rw [hp] at hw; cases hw; exact docsOf_unavailable (h5 _ hp)
            | error e => rw [hp] at hw; cases hw
          · rw [if_neg (by simp)] at hw
            cases hw; exact docsOf_unavailable h4
        · cases hw; exact docsOf_unavailable h4
  obtain ⟨e, he⟩ := hread
  have hf : (findResourceList env.sources c.disc).2 = .error .error := by
    unfold findResourceList readResourceList
    rw [hu, henv]
    simp only [Sources.ofDocs, he]
  obtain ⟨e', h⟩ := baseline_not_found (env := env) (allow := allow_deletion) (audit := audit) (s := s) hf
  rw [h]
  exact ⟨e', rfl, by unfold doneBetween; simp, rfl⟩

/-- C98, a change list that does not arrive. -/
theorem C98_changes_cut_off (env : Env) (c : ClientCfg) (allow_deletion : Bool) (uri from_datetime : Option Str) (s : St)
    (bytesAt : Str → Option Bytes) (henv : env.changeList = readChangeList (docsOf bytesAt))
    (u : Str) (hu : c.disc.sitemapUri (c.changeListName uri) = .ok u) (hcut : Unavailable bytesAt u) :
    ∃ e, (incremental env c allow_deletion uri from_datetime s).2 = .error e ∧
      doneBetween s (incremental env c allow_deletion uri from_datetime s).1 = [] ∧
      (incremental env c allow_deletion uri from_datetime s).1.world = s.world := by
  have hno : env.changeList u = none := by
    rw [henv]
    unfold readChangeList
    rw [docsOf_unavailable hcut]
  have : ∃ e', incrementalPlan env c uri from_datetime s = (s, .error e') := by
    unfold incrementalPlan
    split
    · exact ⟨_, rfl⟩
    · split
      · exact ⟨_, rfl⟩
      · exact ⟨_, rfl⟩
      · split
        · exact ⟨_, rfl⟩
        · rw [hu]
          simp only [hno]
          exact ⟨_, rfl⟩
  obtain ⟨e', he⟩ := this
  have h : incremental env c allow_deletion uri from_datetime s = (s, .error e') := by
    unfold incremental
    rw [he]
  rw [h]
  exact ⟨e', rfl, by unfold doneBetween; simp, rfl⟩

/-! ### Examples -/

namespace BytesExample

/-- a list with one resource whose URI has characters of two, three and four bytes -/
def rs : List Resource := [{ uri := "http://h/é€𝄞".toList, length := some 3 }]

def bytes : Bytes := match documentBytes {} "utf-8".toList [] [] rs false with | .ok b => b | .error _ => []

/-- written, and read again from its bytes -/
example : documentBytes {} "utf-8".toList [] [] rs false = .ok bytes ∧ 226 ∈ bytes ∧ 240 ∈ bytes ∧
    (match parseBytes {} listAdd { resources := [] } bytes none none with | .ok (c, _) => c.resources.map (·.uri) | .error _ => []) =
      ["http://h/é€𝄞".toList] := by decide +kernel

/-- cut off in the middle of a character, and cut off before the last `>`: refused -/
example : ∀ n ∈ [bytes.length - 33, bytes.length - 1], CutOffBytes (bytes.take n) bytes ∧
    (match parseBytes {} listAdd { resources := [] } (bytes.take n) none none with | .error e => decide (e = .notXml) | .ok _ => false) = true := by
  have h : ∀ n ∈ [bytes.length - 33, bytes.length - 1], bytes.drop n ≠ [] ∧
    (match parseBytes {} listAdd { resources := [] } (bytes.take n) none none with | .error e => decide (e = .notXml) | .ok _ => false) = true := by
    decide +kernel
  exact fun n hn => ⟨⟨bytes.drop n, (h n hn).1, (List.take_append_drop n bytes).symm⟩, (h n hn).2⟩

/-- names of encodings and names of attributes -/
example : Utf8Name "utf-8".toList ∧ AttNames [("capability".toList, "resourcelist".toList)] ∧
    (∀ l ∈ EntryLinks rs, AttNames l) := by
  unfold Utf8Name AttNames
  decide

/-- a server that has the list, and one that delivers the first part of it -/
def site (n : Nat) (u : Str) : Option Bytes := if u = "http://h/list.xml".toList then some (bytes.take n) else none

theorem written : Written {} (match resourcesAsXml {} [] [] rs false with | .ok d => d | .error _ => .mk [] [] none []) := by
  refine ⟨[], [], rs, false, (fun k hk => by cases hk), by simp, ?_, rfl⟩
  have e : EntryLinks rs = [] := rfl
  rw [e]
  simp

theorem cut (n : Nat) (hn : n < bytes.length) : Unavailable (site n) "http://h/list.xml".toList := by
  refine .inr ⟨bytes.take n, {}, "utf-8".toList, _, if_pos rfl, .inl rfl, written, ?_⟩
  refine ⟨bytes.drop n, ?_, ?_⟩
  · intro h
    have := congrArg List.length h
    rw [List.length_drop] at this
    simp only [List.length_nil] at this
    omega
  · rw [List.take_append_drop]
    rfl

/-- The whole list, and every first part of it: with the list cut off, the file that is not in the list (and one that is) stays -/
example : (docsOf (site bytes.length) "http://h/list.xml".toList).isSome = true ∧ ∀ n < bytes.length, docsOf (site n) "http://h/list.xml".toList = none :=
  ⟨by decide +kernel, fun n hn => docsOf_unavailable (cut n hn)⟩

end BytesExample

end Resync
