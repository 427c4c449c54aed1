import Verif.Model.Scripts
import Verif.Props.ClientEffects
import Verif.Props.Mapper
import Verif.Props.UrlOpen
import Verif.Props.ClientExample
/-
C80: what resync-sync does with its options.
-/

namespace Resync
open Py Resync.Spec

/-- the state in which a run of resync-sync starts -/
def atStart (world : World) : St := { world := world }

/-- what was done in a run of resync-sync -/
def SyncRun.done (r : SyncRun) : List Effect := r.st.trace

/-- the world at some moment of a run of resync-sync, or left by a crash of the machine at that moment -/
def SyncRun.AtSomeMoment (world : World) (r : SyncRun) (w : World) : Prop := Spec.AtSomeMoment (atStart world) r.st w

/-- A run of resync-sync is refused at once, or is a run of one of the client's functions. -/
theorem syncMain_cases (w : SyncWorld) (a : SyncArgs) (world : World) :
    ((syncMain w a world).st.trace = [] ∧ (syncMain w a world).st.world = world) ∨
    ∃ mapper hashes, mappings w.uw a.map = .ok mapper ∧
      ((a.mode = .baseline ∧ (syncMain w a world).st =
          (baselineOrAudit (w.envFor mapper (!a.multifile)) (a.client w.uw mapper) a.delete false { world := world, hashes := hashes }).1) ∨
       (a.mode = .incremental ∧ (syncMain w a world).st =
          (incremental (w.envFor mapper (!a.multifile)) (a.client w.uw mapper) a.delete a.changelist_uri a.from_datetime
            { world := world, hashes := hashes }).1)) := by
  unfold syncMain
  cases processShared a.toSharedArgs true with
  | none => exact .inl ⟨rfl, rfl⟩
  | some p =>
    obtain ⟨hash, settings⟩ := p
    simp only
    cases hm : mappings w.uw a.map with
    | error e => exact .inl ⟨rfl, rfl⟩
    | ok mapper =>
      simp only
      cases a.mode with
      | baseline => exact .inr ⟨mapper, hash.getD [], rfl, .inl ⟨rfl, rfl⟩⟩
      | incremental => exact .inr ⟨mapper, hash.getD [], rfl, .inr ⟨rfl, rfl⟩⟩
      | audit =>
        left
        obtain ⟨h1, h2, -⟩ := C46_audit (w.envFor mapper (!a.multifile)) (a.client w.uw mapper) a.delete
          { world := world, hashes := hash.getD [] }
        refine ⟨?_, h2⟩
        simpa [doneBetween] using h1
      | parse =>
        simp only
        cases (a.client w.uw mapper).disc.sitemap with
        | error e => exact .inl ⟨rfl, rfl⟩
        | ok sm =>
          simp only
          cases parseDocument w.docAt sm with
          | ok r => exact .inl ⟨rfl, rfl⟩
          | error e => cases e <;> exact .inl ⟨rfl, rfl⟩

theorem moment_refused {world : World} {r : SyncRun} (h : r.st.trace = [] ∧ r.st.world = world) {w : World}
    (hw : r.AtSomeMoment world w) : w = world := by
  obtain ⟨k, rfl⟩ := hw
  simp [doneBetween, h.1, atStart]

/-- C80 (modes that only look).  With --audit or --parse, whatever the other options, nothing is requested, written or
removed, and the status file stays as it is. -/
theorem C80_only_looks (w : SyncWorld) (a : SyncArgs) (world : World) (hm : a.mode = .audit ∨ a.mode = .parse) :
    (syncMain w a world).done = [] ∧ (syncMain w a world).st.world = world ∧
    ∀ w', (syncMain w a world).AtSomeMoment world w' → w' = world := by
  rcases syncMain_cases w a world with h | ⟨mapper, hashes, -, ⟨h, -⟩ | ⟨h, -⟩⟩
  · exact ⟨h.1, h.2, fun w' => moment_refused h⟩
  · rw [h] at hm; simp at hm
  · rw [h] at hm; simp at hm

/-- C80 (--delete).  A file goes away only if --delete is given, and --dryrun is not. -/
theorem C80_delete (w : SyncWorld) (a : SyncArgs) (world : World) (l : Loc) (hf : HasFile world.fs l) (w' : World)
    (hw : (syncMain w a world).AtSomeMoment world w') (hgone : ¬ HasFile w'.fs l) : a.delete = true ∧ a.dryrun = false := by
  rcases syncMain_cases w a world with h | ⟨mapper, hashes, -, ⟨h, e⟩ | ⟨h, e⟩⟩
  · rw [moment_refused h hw] at hgone
    exact absurd hf hgone
  all_goals
    unfold SyncRun.AtSomeMoment at hw
    rw [e] at hw
    constructor
    · cases hd : a.delete with
      | true => rfl
      | false =>
        rw [hd] at hw
        first
        | exact absurd ((C48_no_deletion (w.envFor mapper (!a.multifile)) (a.client w.uw mapper) false none none
            { world := world, hashes := hashes } l hf).1 w' hw) hgone
        | exact absurd ((C48_no_deletion (w.envFor mapper (!a.multifile)) (a.client w.uw mapper) false a.changelist_uri a.from_datetime
            { world := world, hashes := hashes } l hf).2 w' hw) hgone
    · cases hd : a.dryrun with
      | false => rfl
      | true =>
        exfalso
        obtain ⟨b, t, hf⟩ := hf
        first
        | exact hgone ⟨b, t, ((C47_files_partial (w.envFor mapper (!a.multifile)) (a.client w.uw mapper) hd a.delete false none none
            { world := world, hashes := hashes }).1.2 w' hw l b t).mpr hf⟩
        | exact hgone ⟨b, t, ((C47_files_partial (w.envFor mapper (!a.multifile)) (a.client w.uw mapper) hd a.delete false
            a.changelist_uri a.from_datetime { world := world, hashes := hashes }).2.2 w' hw l b t).mpr hf⟩

/-- C80 (--dryrun).  With --dryrun no resource is requested and no file changes.  (C47: directories may be made and the
status file may be written.) -/
theorem C80_dryrun_partial (w : SyncWorld) (a : SyncArgs) (world : World) (hd : a.dryrun = true) :
    (∀ u, Effect.get u ∉ (syncMain w a world).done) ∧
    ∀ w', (syncMain w a world).AtSomeMoment world w' → SameFiles w'.fs world.fs := by
  rcases syncMain_cases w a world with h | ⟨mapper, hashes, -, ⟨h, e⟩ | ⟨h, e⟩⟩
  · refine ⟨?_, ?_⟩
    · intro u hu; unfold SyncRun.done at hu; rw [h.1] at hu; cases hu
    · intro w' hw; rw [moment_refused h hw]; exact fun _ _ _ => Iff.rfl
  · have := (C47_files_partial (w.envFor mapper (!a.multifile)) (a.client w.uw mapper) hd a.delete false none none
      { world := world, hashes := hashes }).1
    refine ⟨?_, ?_⟩
    · intro u hu; unfold SyncRun.done at hu; rw [e] at hu; exact this.1 u (by simpa [doneBetween] using hu)
    · intro w' hw; unfold SyncRun.AtSomeMoment at hw; rw [e] at hw; exact this.2 w' hw
  · have := (C47_files_partial (w.envFor mapper (!a.multifile)) (a.client w.uw mapper) hd a.delete false a.changelist_uri a.from_datetime
      { world := world, hashes := hashes }).2
    refine ⟨?_, ?_⟩
    · intro u hu; unfold SyncRun.done at hu; rw [e] at hu; exact this.1 u (by simpa [doneBetween] using hu)
    · intro w' hw; unfold SyncRun.AtSomeMoment at hw; rw [e] at hw; exact this.2 w' hw

/-- C80 (bad options).  If the mapping arguments make no mapping, or the delay is negative, nothing is done at all and the
exit status says so. -/
theorem C80_bad_options (w : SyncWorld) (a : SyncArgs) (world : World)
    (hbad : (a.map ≠ [] ∧ ∀ ms, Mapper.parse w.uw a.map true ≠ .ok ms) ∨ (∃ d, a.delay = some d ∧ d < 0)) :
    (syncMain w a world).done = [] ∧ (syncMain w a world).st.world = world ∧ (syncMain w a world).exit.status = 1 := by
  have key : (∃ e, mappings w.uw a.map = .error e) ∨ processShared a.toSharedArgs true = none := by
    rcases hbad with ⟨h1, h2⟩ | ⟨d, h1, h2⟩
    · left
      unfold mappings
      rw [if_neg h1]
      cases hp : Mapper.parse w.uw a.map true with
      | error e => exact ⟨e, rfl⟩
      | ok ms => exact absurd hp (h2 ms)
    · right
      unfold processShared
      rw [h1]
      simp only [if_true]
      have : ¬ d = 0 := by omega
      split
      · rfl
      · rw [if_neg this, if_pos h2]
  unfold syncMain
  cases hp : processShared a.toSharedArgs true with
  | none => exact ⟨rfl, rfl, rfl⟩
  | some p =>
    obtain ⟨hash, settings⟩ := p
    rcases key with ⟨e, h⟩ | h
    · simp only [h]; exact ⟨rfl, trivial, rfl⟩
    · rw [hp] at h; cases h

/-- the options that all programs share can be used: --checksum comes with --hash, and the delay is not negative -/
def OptionsOk (a : SharedArgs) : Prop := (a.checksum = true → a.hash ≠ none) ∧ ∀ d, a.delay = some d → 0 ≤ d

/-- the settings a delay stands for -/
def delaySettings : Option Int → List OpenOp
  | none => []
  | some d => if d = 0 then [] else [.setDelay (some d.toNat)]

/-- what they amount to -/
theorem processShared_ok {a : SharedArgs} (h : OptionsOk a) :
    processShared a true = some (if a.checksum then a.hash.map (· ++ ["md5".toList]) else a.hash,
      tokenSettings a.access_token ++ delaySettings a.delay) := by
  obtain ⟨h1, h2⟩ := h
  unfold processShared
  have e : hashOption a = some (if a.checksum then a.hash.map (· ++ ["md5".toList]) else a.hash) := by
    unfold hashOption
    cases hc : a.checksum with
    | false => rfl
    | true =>
      cases hh : a.hash with
      | none => exact absurd hh (h1 hc)
      | some l => rfl
  rw [e]
  simp only [if_true]
  cases hd : a.delay with
  | none => simp [delaySettings]
  | some d =>
    simp only [delaySettings]
    by_cases h0 : d = 0
    · simp [h0]
    · rw [if_neg h0, if_neg (by have := h2 d hd; omega), if_neg h0]

theorem syncMain_settings (w : SyncWorld) (a : SyncArgs) (world : World) (h : OptionsOk a.toSharedArgs) :
    (syncMain w a world).settings =
      tokenSettings a.access_token ++ delaySettings a.delay := by
  unfold syncMain
  rw [processShared_ok h]
  simp only
  cases mappings w.uw a.map with
  | error e => rfl
  | ok mapper =>
    simp only
    cases a.mode with
    | baseline => rfl
    | incremental => rfl
    | audit => rfl
    | parse =>
      simp only
      cases (a.client w.uw mapper).disc.sitemap with
      | error e => rfl
      | ok sm =>
        simp only
        cases parseDocument w.docAt sm with
        | ok r => rfl
        | error e => cases e <;> rfl

theorem opens_keep (before : List OpenOp) (uris : List Str) :
    lastToken (before ++ uris.map .open) = lastToken before ∧ lastDelay (before ++ uris.map .open) = lastDelay before ∧
    opened (before ++ uris.map .open) = opened before ++ uris := by
  induction uris using List.reverseRecOn with
  | nil => simp
  | append_singleton us u ih =>
    rw [List.map_append, ← List.append_assoc]
    obtain ⟨h1, h2, h3⟩ := ih
    refine ⟨?_, ?_, ?_⟩
    · unfold lastToken at h1 ⊢
      rw [List.foldl_append, h1]; rfl
    · unfold lastDelay at h2 ⊢
      rw [List.foldl_append, h2]; rfl
    · unfold opened at h3 ⊢
      rw [List.filterMap_append, h3, List.append_assoc]; rfl

/-- C80 (--access-token, --delay).  In a run of resync-sync every request carries the access token given, if one is given,
and is preceded by the delay given, except the first request and those for local files. -/
theorem C80_requests (w : SyncWorld) (a : SyncArgs) (world : World) (h : OptionsOk a.toSharedArgs) (pre post : List Str) (uri : Str) :
    ∃ r, requestOf w.uw ((syncMain w a world).settings ++ pre.map .open) uri (post.map .open) = some r ∧
      (∀ t, t ≠ [] → a.access_token = some t → r.authorization = some ("Bearer ".toList ++ t)) ∧
      (a.access_token = none ∨ a.access_token = some [] → r.authorization = none) ∧
      (∀ d, 0 < d → a.delay = some d → pre ≠ [] → ¬ Resync.LocalUri w.uw uri → r.slept = some d.toNat) ∧
      (a.delay = none ∨ a.delay = some 0 ∨ pre = [] ∨ Resync.LocalUri w.uw uri → r.slept = none) := by
  rw [syncMain_settings w a world h]
  generalize hs : tokenSettings a.access_token = tok
  generalize hd : delaySettings a.delay = del
  obtain ⟨r, h1, h2⟩ := C62_token w.uw ((tok ++ del) ++ pre.map .open) uri (post.map .open)
  obtain ⟨r', h3, h4, h5, h6⟩ := C62_delay w.uw ((tok ++ del) ++ pre.map .open) uri (post.map .open)
  rw [h1] at h3; cases h3
  obtain ⟨k1, k2, k3⟩ := opens_keep (tok ++ del) pre
  rw [k1] at h2
  rw [k2] at h6
  rw [k3] at h4 h6
  have ho : opened (tok ++ del) = [] := by
    subst hs hd
    rcases a.access_token with _ | _ | _ <;> rcases a.delay with _ | d <;> simp only [opened, tokenSettings, given, delaySettings] <;> (try split) <;> rfl
  rw [ho, List.nil_append] at h4 h6
  have ht : lastToken (tok ++ del) = given a.access_token := by
    subst hs hd
    rcases a.access_token with _ | _ | _ <;> rcases a.delay with _ | d <;> simp only [lastToken, tokenSettings, given, delaySettings] <;> (try split) <;> rfl
  have hdel : lastDelay (tok ++ del) = (match a.delay with | none => none | some d => if d = 0 then none else some d.toNat) := by
    subst hs hd
    rcases a.access_token with _ | _ | _ <;> rcases a.delay with _ | d <;> simp only [lastDelay, tokenSettings, given, delaySettings] <;> (try split) <;> rfl
  rw [ht] at h2
  rw [hdel] at h6
  refine ⟨r, h1, ?_, ?_, ?_, ?_⟩
  · intro t hne e
    rw [h2, e]
    cases t with
    | nil => exact absurd rfl hne
    | cons c t => rfl
  · rintro (e | e) <;> rw [h2, e] <;> rfl
  · intro d hpos e hne hl
    rw [h6 hne hl, e]
    simp only
    rw [if_neg (by omega)]
  · intro hz
    by_cases hp : pre = []
    · exact h4 hp
    · by_cases hl : Resync.LocalUri w.uw uri
      · exact h5 hl
      · rw [h6 hp hl]
        rcases hz with e | e | e | e
        · rw [e]
        · rw [e]; rfl
        · exact absurd e hp
        · exact absurd e hl

end Resync
