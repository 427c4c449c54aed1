import Verif.Proofs.ChangeRead
import Verif.Props.ClientChanges
/-
C83: reading back, as a change list, what write_change_list wrote.
-/

namespace Resync
open Py Resync.Spec

/-- C83, the part that holds.  A change list that fits into one document is read back, by whoever gets the document under
some URI, as changes that take the old state to the new one. -/
theorem C83_one_document_partial (c : WriteCfg) (env : WriteEnv) (paths newref : Option Str) (ref f : Str)
    (links : Option (List Link)) (hln : ∀ x ∈ links.getD [], LinkOk x) (old new : Dict Resource)
    (hold : readReference c env ref = .ok old) (hnew : newState c env paths newref = .ok new)
    (eo : ∀ k r, dget old k = some r → Expressible r) (en : ∀ k r, dget new k = some r → Expressible r)
    (hfit : ∀ cl, changeListEntries c env paths ref newref false = .ok cl → cl.length ≤ max 1 (c.max_sitemap_entries.getD 50000))
    (before : Str → Option FileState) (docAt : Str → Option Elem) (uri : Str)
    (hserve : docAt uri = fileDoc (runFs before (writeChangeList c env paths (some f) ref newref false links false).1.files f)) :
    ∃ changes, readChangeList docAt uri = some changes ∧ (changes.map (·.uri)).Nodup ∧
      (∀ r ∈ changes, ∃ r0, RightEntry (dget old) (dget new) r0 ∧ RecordedNear false false r0 r) ∧
      TakesTo (dget old) changes (dget new) := by
  obtain ⟨-, doc, list, n, h1, h2, h3, h4, h5, -⟩ :=
    C74_change_list_partial c env paths newref ref f links hln old new hold hnew eo en hfit before
  rw [h1] at hserve
  refine ⟨_, readChangeList_ok hserve h2 ?_, h3, h4, h5⟩
  intro r hr
  obtain ⟨r0, h, hn⟩ := h4 r hr
  rw [(recordedNear_change hn).1]
  rcases h.kind with h | h | h <;> rw [h] <;> rfl

theorem resourcesAsXml_root {s : Sitemap} {md : Dict Str} {ln : List Link} {rs : List Resource} {i : Bool} {t : Elem}
    (h : resourcesAsXml s md ln rs i = .ok t) : ∃ x es, t = .mk (if i then "sitemapindex".toList else "urlset".toList)
      [("xmlns".toList, SITEMAP_NS), ("xmlns:rs".toList, RS_NS)] x es := by
  unfold resourcesAsXml at h
  simp only [bind_ok_iff] at h
  obtain ⟨es, -, h⟩ := h
  cases h
  exact ⟨_, _, rfl⟩

theorem reparse_index {x : Option Str} {es : List Elem} {t : Elem}
    (h : reparse (.mk "sitemapindex".toList [("xmlns".toList, SITEMAP_NS), ("xmlns:rs".toList, RS_NS)] x es) = some t) :
    t.tag = smTag "sitemapindex" := by
  have e : reparse (.mk "sitemapindex".toList [("xmlns".toList, SITEMAP_NS), ("xmlns:rs".toList, RS_NS)] x es) =
      reparseElem SITEMAP_NS RS_NS (.mk "sitemapindex".toList [("xmlns".toList, SITEMAP_NS), ("xmlns:rs".toList, RS_NS)] x es) := rfl
  rw [e, reparseElem] at h
  split at h
  · rename_i tag att text ch h1 _ _ _
    cases h
    have hq : qualify ((dget [("xmlns".toList, SITEMAP_NS), ("xmlns:rs".toList, RS_NS)] sXmlns).getD SITEMAP_NS)
        ((dget [("xmlns".toList, SITEMAP_NS), ("xmlns:rs".toList, RS_NS)] "xmlns:rs".toList).getD RS_NS)
        "sitemapindex".toList = some (smTag "sitemapindex") := by decide
    rw [hq] at h1
    cases h1; rfl
  · cases h

/-- C83 is violated for a change list that needs several documents: `write_change_list` writes an index and its parts, but no
reader of change lists accepts the index. -/
theorem C83_violated (c : WriteCfg) (env : WriteEnv) (paths newref : Option Str) (ref f : Str)
    (links : Option (List Link)) (cl : List Resource) (hcl : changeListEntries c env paths ref newref false = .ok cl)
    (hlong : max 1 (c.max_sitemap_entries.getD 50000) < cl.length)
    (hok : (writeChangeList c env paths (some f) ref newref false links false).2 = .ok ())
    (before : Str → Option FileState) (docAt : Str → Option Elem) (uri : Str)
    (hserve : docAt uri = fileDoc (runFs before (writeChangeList c env paths (some f) ref newref false links false).1.files f)) :
    readChangeList docAt uri = none := by
  unfold writeChangeList at hok hserve
  rw [if_neg (by simp), hcl] at hok hserve
  simp only at hok hserve
  rw [writeTo_ok] at hok
  rw [writeTo_files] at hserve
  obtain ⟨iu, docs, us, idx, h1, h2, h3, h4, h5, h6⟩ := write_multi_ok _ env.stat f _ rfl hlong hok
  rw [h6, runFs_append] at hserve
  simp only [runFs, if_true, fileDoc] at hserve
  obtain ⟨x, es, rfl⟩ := resourcesAsXml_root h5
  cases hd : docAt uri with
  | none => unfold readChangeList; rw [hd]
  | some doc =>
    rw [hd] at hserve
    exact readChangeList_index hd (reparse_index hserve.symm)

namespace ChangesExample

/-- three changes, one to a document: all hypotheses hold -/
example (docAt : Str → Option Elem) (h : docAt "http://h/changes.xml".toList = fileDoc (runFs (fun _ => none)
      (writeChangeList WriteExample.cfg env none (some "/d/changes.xml".toList) "old.xml".toList (some "new.xml".toList) false none
        false).1.files "/d/changes.xml".toList)) :
    docAt "http://h/changes.xml".toList ≠ none ∧ readChangeList docAt "http://h/changes.xml".toList = none := by
  refine ⟨?_, C83_violated WriteExample.cfg env none (some "new.xml".toList) "old.xml".toList "/d/changes.xml".toList none _ entries
    (by decide) (by decide +kernel) (fun _ => none) docAt _ h⟩
  rw [h]
  decide +kernel

end ChangesExample

/-- C83, adding.  `add` of several resources to a change list appends them in their order; at the first one without a change it raises, and
what was added before stays. -/
theorem C83_add (cl rs : List Resource) :
    clAddAll cl rs = (cl ++ rs.takeWhile (fun r => r.change.isSome),
      if ∀ r ∈ rs, r.change.isSome then none else some .changeType) := by
  induction rs generalizing cl with
  | nil => simp [clAddAll]
  | cons r t ih =>
    rw [clAddAll]
    cases hc : r.change with
    | none => simp [addIfChanged, hc]
    | some c =>
      simp only [addIfChanged, hc]
      rw [ih]
      simp [hc]

example : (clAddAll [] [{ uri := "http://h/a".toList, change := some "created".toList }, { uri := "http://h/b".toList },
    { uri := "http://h/c".toList, change := some "deleted".toList }]).1.map (·.uri) = ["http://h/a".toList] := by decide

end Resync
