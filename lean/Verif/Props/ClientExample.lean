import Verif.Proofs.ClientRun
import Verif.Spec.ClientState
import Verif.Proofs.Num
import Verif.Spec.Times
import Mathlib.Tactic.NormNum
/-
Small sources, servers and disks for the examples beside the theorems about the client.
-/

namespace Resync
open Py Resync.Spec

/-- Times written as fractions: the sign, the numerator, '/', the denominator -/
def ratStr (q : Rat) : Str :=
  (if q.num < 0 then 'm' else 'p') :: natStr q.num.natAbs ++ '/' :: natStr q.den

def ratFloat : Str → Option Rat
  | c :: t =>
    if c = 'm' then some (mkRat (-(digitsVal (t.takeWhile isDigit) : Int)) (digitsVal ((t.dropWhile isDigit).drop 1)))
    else some (mkRat (digitsVal (t.takeWhile isDigit) : Int) (digitsVal ((t.dropWhile isDigit).drop 1)))
  | [] => none

def ratFt : FloatText Rat where
  str := ratStr
  float := ratFloat

theorem takeWhile_digits {d : Str} (h : ∀ c ∈ d, isDigit c = true) (t : Str) :
    (d ++ '/' :: t).takeWhile isDigit = d ∧ (d ++ '/' :: t).dropWhile isDigit = '/' :: t := by
  induction d with
  | nil => exact ⟨rfl, rfl⟩
  | cons c d ih =>
    obtain ⟨h1, h2⟩ := ih (fun x hx => h x (by simp [hx]))
    rw [List.cons_append, List.takeWhile_cons, List.dropWhile_cons, h c (by simp), h1, h2]
    exact ⟨rfl, rfl⟩

theorem ratFt_ok : FloatOk ratFt where
  back := by
    intro q
    show ratFloat (ratStr q) = some q
    unfold ratStr ratFloat
    obtain ⟨h1, h2⟩ := takeWhile_digits (natStr_digits q.num.natAbs) (natStr q.den)
    by_cases h : q.num < 0
    · have : -((q.num.natAbs : Nat) : Int) = q.num := by omega
      simp only [if_pos h, List.cons_append, if_true, h1, h2, List.drop_succ_cons, List.drop_zero, natStr_val, this, Rat.mkRat_self]
    · have : ((q.num.natAbs : Nat) : Int) = q.num := by omega
      have hne : ¬ ('p' = 'm') := by decide
      simp only [if_neg h, List.cons_append, if_neg hne, h1, h2, List.drop_succ_cons, List.drop_zero, natStr_val, this, Rat.mkRat_self]
  nonempty := by intro q; simp [ratFt, ratStr]
  clean := by
    intro q c hc
    have aux : ∀ c ∈ "mp/".toList, isSpace c = false ∧ c ≠ '%' := by decide
    have aux2 : ∀ c, isDigit c = true → isSpace c = false ∧ c ≠ '%' := by
      intro c h
      have : 48 ≤ c.toNat ∧ c.toNat ≤ 57 := by simpa [isDigit] using h
      refine ⟨?_, ?_⟩
      · by_contra hn
        have hs : isSpace c = true := by simpa using hn
        simp only [isSpace] at hs
        simp at hs
        omega
      · rintro rfl
        exact absurd this.1 (by decide)
    simp only [ratFt, ratStr, List.cons_append, List.mem_cons, List.mem_append] at hc
    rcases hc with h | h | h | h
    · split at h <;> subst h <;> exact aux _ (by decide)
    · exact aux2 c (natStr_digits _ c h)
    · subst h; exact aux _ (by decide)
    · exact aux2 c (natStr_digits _ c h)

/-- digests which tell contents apart: the bytes as letters -/
def bytesText (b : Bytes) : Str := b.map (fun x => Char.ofNat (x.toNat + 97))

def exLib : HashLib := ⟨bytesText, bytesText, bytesText⟩

namespace ClientExample

def base : Str := "http://s".toList
def uri (n : String) : Str := base ++ '/' :: n.toList
def at_ (n : String) : Loc := ["d".toList, n.toList]

/-- the one mapping http://s -> /d -/
def cfg : ClientCfg where
  disc := { mapper := [⟨base, "/d".toList⟩], sitemap_name := some (uri "rl.xml") }

def res (n : String) (t : Rat) : Resource := { uri := uri n, timestamp := some t }

def listOf (rs : List Resource) : Dict Resource := rs.map (fun r => (r.uri, r))

/-- a server that delivers the same bytes for everything, at http://s/rl.xml a resource list, at
http://s/changelist.xml a change list -/
def env (rl : List Resource) (cl : List Resource) (served : Bytes) : Env where
  sources := { resourceList := fun u => if u = uri "rl.xml" then some (listOf rl) else none
               sourceDescription := fun _ => none
               capabilityList := fun _ => none }
  changeList u := if u = uri "changelist.xml" then some cl else none
  serve _ _ := .body served none
  now _ := 1000
  mkdirFails _ _ := false
  openFails _ _ := false
  unlinkFails _ _ := false
  lib := exLib
  ft := ratFt
  cwd := []

/-- /d with some files of one byte each, at time 50 -/
def disk (names : List String) : Fs := (["d".toList], .dir) :: names.map (fun n => (at_ n, .file [7] 50))

def start (names : List String) : St where
  world := { fs := disk names }

theorem env_keyed (rl cl : List Resource) (b : Bytes) (h : (rl.map (·.uri)).Nodup) : ListsKeyed (env rl cl b).sources := by
  intro u d hd
  simp only [env] at hd
  split at hd
  · simp only [Option.some.injEq] at hd
    subst hd
    refine ⟨by unfold listOf; rw [List.map_map]; exact h, ?_⟩
    intro k r hk
    simp only [listOf, List.mem_map, Prod.mk.injEq] at hk
    obtain ⟨x, _, rfl, rfl⟩ := hk
    rfl
  · cases hd

instance (n : Str) : Decidable (ProperName n) := by unfold ProperName; infer_instance

theorem properFs_of {fs : Fs} (h1 : (fs.map Prod.fst).Nodup) (h2 : ∀ p ∈ fs, ∀ n ∈ p.1, ProperName n) (h3 : ∀ p ∈ fs, p.1 ≠ [])
    (h4 : ∀ p ∈ fs, fs.get p.1.dropLast = some .dir) : ProperFs fs := ⟨h1, h2, h3, h4⟩

theorem before_of {fs : Fs} (h : ∀ p ∈ fs, p.2 = .dir ∨ ∃ b, p.2 = .file b 50) (l : Loc) (b : Bytes) (t : Rat)
    (hf : IsFile fs l b t) : Before10000 t := by
  unfold IsFile Fs.get at hf
  split at hf
  · cases hf
  · have hm : (l, FsNode.file b t) ∈ fs := by
      clear h
      induction fs with
      | nil => cases hf
      | cons p fs ih =>
        rw [List.lookup_cons] at hf
        split at hf
        · rename_i he
          have h1 : l = p.1 := by simpa using he
          have h2 : p.2 = FsNode.file b t := by simpa using hf
          rw [h1, ← h2]
          simp
        · exact List.mem_cons_of_mem _ (ih hf)
    rcases h _ hm with h | ⟨b', h⟩
    · cases h
    · cases h
      unfold Before10000
      norm_num

theorem start_before (names : List String) (l : Loc) (b : Bytes) (t : Rat) (hf : IsFile (start names).world.fs l b t) : Before10000 t := by
  refine before_of ?_ l b t hf
  intro p hp
  simp only [start, disk, List.mem_cons, List.mem_map] at hp
  rcases hp with rfl | ⟨n, -, rfl⟩
  · exact .inl rfl
  · exact .inr ⟨_, rfl⟩

/-- a baseline: b is created, a updated, c deleted -/
example :
    let r := baselineOrAudit (env [res "a" 100, res "b" 200] [] [1, 2]) cfg true false (start ["a", "c"])
    r.2 = .ok () ∧ r.1.world.fs.get (at_ "a") = some (.file [1, 2] 100) ∧ r.1.world.fs.get (at_ "b") = some (.file [1, 2] 200) ∧
    r.1.world.fs.get (at_ "c") = none ∧ getState ratFt r.1.world.state (uri "rl.xml") = .ok (some 200) := by decide +kernel

end ClientExample
end Resync
