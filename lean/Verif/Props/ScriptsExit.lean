import Verif.Props.ScriptsBuild
import Verif.Props.Explorer
/-
C82: what the exit status of the programs says.  Also concrete cases for the theorems of C80.
-/

namespace Resync
open Py Resync.Spec

/-- what the client function behind a mode of resync-sync returns, for usable options and mapping -/
def clientResult (w : SyncWorld) (a : SyncArgs) (world : World) (mapper : Mapper) : Option (Except ClientErr Unit) :=
  let s : St := { world := world, hashes := a.hashTypes }
  match a.mode with
  | .baseline => some (baselineOrAudit (w.envFor mapper (!a.multifile)) (a.client w.uw mapper) a.delete false s).2
  | .audit => some (baselineOrAudit (w.envFor mapper (!a.multifile)) (a.client w.uw mapper) a.delete true s).2
  | .incremental => some (incremental (w.envFor mapper (!a.multifile)) (a.client w.uw mapper) a.delete a.changelist_uri
      a.from_datetime s).2
  | .parse => none

/-- C82, the part that holds.  A sync or audit that the client completes ends with status 0; one that does not ends with a
status other than 0, or with the message `FatalError` (and then with status 0, see C82_violated). -/
theorem C82_reported_partial (w : SyncWorld) (a : SyncArgs) (world : World) (mapper : Mapper) (hm : mappings w.uw a.map = .ok mapper)
    (ho : OptionsOk a.toSharedArgs) (r : Except ClientErr Unit) (hr : clientResult w a world mapper = some r) :
    (r = .ok () → (syncMain w a world).exit = .done ∧ (syncMain w a world).exit.status = 0) ∧
    (r ≠ .ok () → (syncMain w a world).exit = .fatal ∨ (syncMain w a world).exit.status ≠ 0) := by
  have hh : (if a.checksum = true then Option.map (· ++ ["md5".toList]) a.hash else a.hash).getD [] = a.hashTypes := by
    unfold SharedArgs.hashTypes
    cases hc : a.checksum with
    | false => simp
    | true =>
      cases hh : a.hash with
      | none => exact absurd hh (ho.1 hc)
      | some l => rfl
  have key : (syncMain w a world).exit = .ofClient r := by
    unfold clientResult at hr
    unfold syncMain
    rw [processShared_ok ho]
    simp only [hm]
    rw [hh]
    cases hmode : a.mode with
    | parse => rw [hmode] at hr; cases hr
    | baseline => rw [hmode] at hr; cases hr; rfl
    | audit => rw [hmode] at hr; cases hr; rfl
    | incremental => rw [hmode] at hr; cases hr; rfl
  rw [key]
  rcases r with e | ⟨⟩
  · cases e <;> simp [Exit.ofClient, Exit.status]
  · simp [Exit.ofClient, Exit.status]

/-- C82 for resync-explorer with a document to start from: the documents visited are those of the exploration; the status is
0 if the exploration ends because the user leaves it (q, or b at the start), and not 0 if it ends in any other way. -/
theorem C82_explorer (w : ExpWorld) (a : ExploreArgs) (inputs : List Str) (u : Str) (vs : List Visit) (e : Ending)
    (ho : OptionsOk a.toSharedArgs) (hs : a.sitemap = some u) (hu : u ≠ [])
    (h : explore w { mapper := [], sitemap_name := some u, uw := w.uw } inputs = .ok (vs, e)) :
    (exploreMain w a inputs).1 = vs ∧ ((exploreMain w a inputs).2.status = 0 ↔ e = .quit ∨ e = .done) := by
  have hg : given a.sitemap = some u := by
    rw [hs]
    cases u with
    | nil => exact absurd rfl hu
    | cons c t => rfl
  unfold exploreMain
  rw [processShared_ok ho]
  simp only [hg, h]
  cases e <;> refine ⟨rfl, ?_⟩ <;> simp [Exit.status]

namespace ScriptsExample

/-- http://h/list.xml is a resource list with one entry, http://h/a -/
def oneDoc : Str → Option Elem := fun u =>
  if u = "http://h/list.xml".toList then
    some (.mk (smTag "urlset") [] none [.mk (smTag "url") [] none [.mk (smTag "loc") [] (some "http://h/a".toList) []]])
  else none

/-- ... but the server does not deliver it -/
def broken : SyncWorld where
  env := { MirrorExample.menv with serve := fun _ _ => .fail .timeout }
  docAt := oneDoc

/-- resync-sync --baseline --tries 1 --sitemap http://h/list.xml http://h=/e -/
def oneSync : SyncArgs where
  mode := .baseline
  map := ["http://h=/e".toList]
  sitemap := some "http://h/list.xml".toList
  tries := some 1

end ScriptsExample

/-- C82 is violated: the exit status of resync-sync and resync-build is 0 (success) for whatever they call a fatal error.  For
example: no mapping is given; the document for --parse cannot be read; a --link option makes no sense; resync-explorer is started
without --sitemap; a listed resource cannot be downloaded. -/
theorem C82_violated :
    (∀ (w : SyncWorld) (a : SyncArgs) (world : World), OptionsOk a.toSharedArgs → a.mode ≠ .parse → a.map = [] →
      (syncMain w a world).done = [] ∧ (syncMain w a world).exit.status = 0) ∧
    (∀ (w : SyncWorld) (a : SyncArgs) (world : World) (u : Str), OptionsOk a.toSharedArgs → a.mode = .parse → a.map = [] →
      u ≠ [] → a.sitemap = some u → w.docAt u = none → (syncMain w a world).parsed = none ∧ (syncMain w a world).exit.status = 0) ∧
    (∀ (env : WriteEnv) (a : BuildArgs), (a.checksum = true → a.hash ≠ none) → a.map = [] → (∀ ls, parseLinks a.link ≠ .ok ls) →
      (buildMain env a).files = [] ∧ (buildMain env a).stdout = [] ∧ (buildMain env a).exit.status = 0) ∧
    (∀ (w : ExpWorld) (a : ExploreArgs) (inputs : List Str), OptionsOk a.toSharedArgs → a.sitemap = none →
      (exploreMain w a inputs).1 = [] ∧ (exploreMain w a inputs).2.status = 0) ∧
    ((syncMain ScriptsExample.broken ScriptsExample.oneSync { fs := [] }).exit.status = 0 ∧
      Effect.get "http://h/a".toList ∈ (syncMain ScriptsExample.broken ScriptsExample.oneSync { fs := [] }).done ∧
      (syncMain ScriptsExample.broken ScriptsExample.oneSync { fs := [] }).st.world.fs.get ["e".toList, "a".toList] = none) := by
  refine ⟨?_, ?_, ?_, ?_, ?_⟩
  · intro w a world ho hp hm
    have hmap : mappings w.uw a.map = .ok [] := by rw [hm]; rfl
    unfold syncMain
    rw [processShared_ok ho]
    simp only [hmap]
    cases hmode : a.mode with
    | parse => exact absurd hmode hp
    | baseline => exact ⟨rfl, rfl⟩
    | audit => exact ⟨rfl, rfl⟩
    | incremental => exact ⟨rfl, rfl⟩
  · intro w a world u ho hp hm hu hs hd
    have hmap : mappings w.uw a.map = .ok [] := by rw [hm]; rfl
    have hg : given a.sitemap = some u := by
      rw [hs]
      cases u with
      | nil => exact absurd rfl hu
      | cons c t => rfl
    unfold syncMain
    rw [processShared_ok ho]
    simp only [hmap, hp]
    have hsm : (a.client w.uw []).disc.sitemap = .ok u := by
      show (match given a.sitemap with
        | some n => Except.ok n
        | none => _) = _
      rw [hg]
    rw [hsm]
    simp only [parseDocument, hd]
    exact ⟨trivial, rfl⟩
  · intro env a hc hm hl
    have hmap : mappings env.uw a.map = .ok [] := by rw [hm]; rfl
    obtain ⟨hash, h1, -⟩ := processShared_build hc
    unfold buildMain
    rw [h1]
    simp only [hmap]
    cases hp : parseLinks a.link with
    | ok ls => exact absurd hp (hl ls)
    | error e => exact ⟨rfl, rfl, rfl⟩
  · intro w a inputs ho hs
    unfold exploreMain
    rw [processShared_ok ho]
    simp only [hs, explore, explorerStarts, given, Mapper.defaultSrcUri]
    exact ⟨trivial, rfl⟩
  · decide +kernel

namespace ScriptsExample

/-- the hypotheses of C82_reported_partial hold, for a run that the client completes and for one that it does not -/
example : OptionsOk oneSync.toSharedArgs ∧ mappings (fun _ => false) oneSync.map = .ok [⟨"http://h".toList, "/e".toList⟩] ∧
    clientResult broken oneSync { fs := [] } [⟨"http://h".toList, "/e".toList⟩] = some (.error .fatal) ∧
    clientResult { broken with env := MirrorExample.menv } oneSync { fs := [] } [⟨"http://h".toList, "/e".toList⟩] = some (.ok ()) :=
  ⟨⟨by decide, by intro d h; cases h⟩, by decide +kernel, by decide +kernel, by decide +kernel⟩

/-- a --link option that makes no sense -/
example : parseLinks (some ["license".toList]) = .error .fatal := by decide

/-- C82_explorer: q gives 0, the end of the input does not -/
def oneStep : ExpWorld := { docAt := fun _ _ => none }

example : (∃ vs, explore oneStep { mapper := [], sitemap_name := some "http://a/x".toList, uw := oneStep.uw } ["q".toList] = .ok (vs, .quit)) ∧
    (exploreMain oneStep { sitemap := some "http://a/x".toList } ["q".toList]).2.status = 0 ∧
    (exploreMain oneStep { sitemap := some "http://a/x".toList } []).2.status = 1 :=
  ⟨⟨_, rfl⟩, by decide +kernel, by decide +kernel⟩

/-! ### Concrete cases for C80 -/

/-- C80_delete: a file that is not in the list goes away with --delete ... -/
def oldFile : World := { fs := [(["e".toList], .dir), (["e".toList, "b".toList], .file [7] 50)] }

example : (syncMain { broken with env := MirrorExample.menv } { oneSync with delete := true } oldFile).st.world.fs.get
    ["e".toList, "b".toList] = none := by decide +kernel

/-- ... and stays without it, or with --dryrun -/
example : (syncMain { broken with env := MirrorExample.menv } oneSync oldFile).st.world.fs.get ["e".toList, "b".toList] =
      some (.file [7] 50) ∧
    (syncMain { broken with env := MirrorExample.menv } { oneSync with delete := true, dryrun := true } oldFile).st.world.fs.get
      ["e".toList, "b".toList] = some (.file [7] 50) := by decide +kernel

/-- C80_bad_options: three mapping arguments without '=' make no mapping -/
example : Mapper.parse (fun _ => false) ["a".toList, "b".toList, "c".toList] true = .error .mapper := by decide +kernel

/-- C80_requests: the second request carries the token and is delayed -/
example : requestOf (fun _ => false) ((syncMain broken { oneSync with access_token := some "t".toList, delay := some 3 } { fs := [] }).settings ++
      ["http://h/a".toList].map .open) "http://h/b".toList ([].map .open) =
    some { url := "http://h/b".toList, authorization := some "Bearer t".toList, slept := some 3 } := by decide +kernel

end ScriptsExample

end Resync
