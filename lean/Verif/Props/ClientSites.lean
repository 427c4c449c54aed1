import Verif.Props.ClientProgress
/-
The theorems about several sites (C50, C51, C79) at work: two sites, and a server that times out on every other request.
-/

namespace Resync
open Py Resync.Spec

namespace SitesExample
open ClientExample (listOf)

def mS : Map := ⟨"http://s".toList, "/d".toList⟩
def mT : Map := ⟨"http://t/x".toList, "/e/f".toList⟩

def two : List (Map × Loc) := [(mS, ["d".toList]), (mT, ["e".toList, "f".toList])]

def cfg2 : ClientCfg := { disc := { mapper := [mS, mT], sitemap_name := some "http://s/rl.xml".toList }, tries := 2, noauth := true }

def rl : List Resource := [{ uri := "http://s/a".toList, timestamp := some 100, length := some 2 },
  { uri := "http://t/x/b/c".toList, timestamp := some (401/2), length := some 2 }]

/-- every other request times out, the first one after a byte -/
def env2 : Env := { ClientExample.env [] [] [1, 2] with
  sources := { resourceList := fun u => if u = "http://s/rl.xml".toList then some (listOf rl) else none
               sourceDescription := fun _ => none
               capabilityList := fun _ => none }
  serve := fun tr _ => if (tr.countP (fun e => match e with | .get _ => true | _ => false)) % 2 = 0 then .body [1] (some .timeout) else .body [1, 2] none }

/-- one file to be updated and one to be deleted below each of the destinations -/
def fs2 : Fs := [(["d".toList], .dir), (["d".toList, "a".toList], .file [7] 50), (["d".toList, "old".toList], .file [7] 50),
  (["e".toList], .dir), (["e".toList, "f".toList], .dir), (["e".toList, "f".toList, "old".toList], .file [7] 50),
  (["e".toList, "other".toList], .file [7] 50)]

def s2 : St := { world := { fs := fs2, state := none } }

theorem apart_at (i : Nat) {a b : Str} (h : (a ++ ['/'])[i]?.getD '.' ≠ (b ++ ['/'])[i]?.getD '.' ∧ (a ++ ['/'])[i]?.getD '.' ≠ '.' ∧
    (b ++ ['/'])[i]?.getD '.' ≠ '.') : Apart a b := by
  obtain ⟨h1, h2, h3⟩ := h
  cases ha : (a ++ ['/'])[i]? with
  | none => simp [ha] at h2
  | some x =>
    cases hb : (b ++ ['/'])[i]? with
    | none => simp [hb] at h3
    | some y =>
      simp only [ha, hb, Option.getD_some] at h1 h2 h3
      exact ⟨i, x, y, ha, hb, h1, h2, h3⟩

theorem sites2 : Sites cfg2 env2.cwd two s2.world.fs where
  mapper := rfl
  nonempty := by decide
  src := by unfold LiteralOrDot OneLine; decide
  dst := by unfold LiteralOrDot OneLine; decide
  place := by decide
  apart := by
    refine .cons ?_ (.cons (by simp) .nil)
    intro q hq
    rw [List.mem_singleton] at hq
    subst hq
    exact ⟨apart_at 7 (by decide), apart_at 1 (by decide), by decide, by decide⟩
  proper := ClientExample.properFs_of (by decide) (by decide) (by decide) (by decide)
  names := by unfold OneLine; decide
  cwdNames := by intro n hn; cases hn
  notFile := by
    intro p hp
    simp only [two, List.mem_cons, List.not_mem_nil, or_false] at hp
    rcases hp with rfl | rfl
    · exact ClientExample.no_file (by decide)
    · exact ClientExample.no_file (by decide)

theorem below2 : ListBelow two (listOf rl) := by
  intro u r h
  simp only [listOf, rl, List.map_cons, List.map_nil, List.mem_cons, Prod.mk.injEq, List.not_mem_nil, or_false] at h
  rcases h with ⟨rfl, -⟩ | ⟨rfl, -⟩
  · exact ⟨(mS, ["d".toList]), by simp [two], ["a".toList], by decide, ClientExample.plain (by unfold ProperName OneLine; decide), by decide⟩
  · exact ⟨(mT, ["e".toList, "f".toList]), by simp [two], ["b".toList, "c".toList], by decide,
      ClientExample.plain (by unfold ProperName OneLine; decide), by decide⟩

theorem keyed2 : ListsKeyed env2.sources := by
  intro u d h
  simp only [env2] at h
  split at h
  · cases h
    refine ⟨by decide, ?_⟩
    intro k r h
    simp only [listOf, rl, List.map_cons, List.map_nil, List.mem_cons, Prod.mk.injEq, List.not_mem_nil, or_false] at h
    rcases h with ⟨rfl, rfl⟩ | ⟨rfl, rfl⟩ <;> rfl
  · cases h

theorem count_append (tr tr' : List Effect) (uri : Str) (h : NextTry uri tr tr') :
    tr'.countP (fun e => match e with | .get _ => true | _ => false) = tr.countP (fun e => match e with | .get _ => true | _ => false) + 1 := by
  obtain ⟨rest, rfl, h⟩ := h
  rw [List.countP_append, List.countP_cons]
  have : rest.countP (fun e => match e with | .get _ => true | _ => false) = 0 := by
    rw [List.countP_eq_zero]
    intro e he
    cases e <;> simp
    exact absurd he (h _)
  rw [this]
  simp

theorem delivers2 (u : Str) : Delivers env2 2 u := by
  constructor
  · intro tr
    simp only [env2]
    split
    · exact .inr (.inr ⟨_, rfl⟩)
    · exact .inl ⟨_, rfl⟩
  · intro trs hl hc
    match trs, hl, hc with
    | [a, b], _, hc =>
      have h1 : NextTry u a b := by simpa using hc
      have := count_append a b u h1
      by_cases ha : (a.countP (fun e => match e with | .get _ => true | _ => false)) % 2 = 0
      · refine ⟨b, by simp, [1, 2], ?_⟩
        simp only [env2]
        rw [if_neg (by omega)]
      · exact ⟨a, by simp, [1, 2], by simp only [env2]; rw [if_neg ha]⟩

theorem listed2 {l : Loc} (h : PlaceListed two (listOf rl) l) : l = ["d".toList, "a".toList] ∨ l = ["e".toList, "f".toList, "b".toList, "c".toList] := by
  obtain ⟨p, hp, names, h1, h2, rfl, r, h⟩ := h
  obtain ⟨q, hq, names', h1', h2', hu, hl⟩ : ∃ q ∈ two, ∃ names', names' ≠ [] ∧ (∀ n ∈ names', PlainName n) ∧
      uriBelow p.1 names = uriBelow q.1 names' ∧
      (q.2 ++ names' = ["d".toList, "a".toList] ∨ q.2 ++ names' = ["e".toList, "f".toList, "b".toList, "c".toList]) := by
    simp only [listOf, rl, List.map_cons, List.map_nil, List.mem_cons, Prod.mk.injEq, List.not_mem_nil, or_false] at h
    rcases h with ⟨h, -⟩ | ⟨h, -⟩
    · exact ⟨(mS, ["d".toList]), by simp [two], ["a".toList], by decide, ClientExample.plain (by unfold ProperName OneLine; decide),
        h.trans (by decide), .inl rfl⟩
    · exact ⟨(mT, ["e".toList, "f".toList]), by simp [two], ["b".toList, "c".toList], by decide,
        ClientExample.plain (by unfold ProperName OneLine; decide), h.trans (by decide), .inr rfl⟩
  obtain ⟨rfl, rfl⟩ := sites2.uri_inj hp hq h1 h1' h2 h2' hu
  exact hl

theorem years2 (u : Str) (r : Resource) (t : Rat) (h : (u, r) ∈ listOf rl) (ht : r.timestamp = some t) : Before10000 t := by
  simp only [listOf, rl, List.map_cons, List.map_nil, List.mem_cons, Prod.mk.injEq, List.not_mem_nil, or_false] at h
  rcases h with ⟨-, rfl⟩ | ⟨-, rfl⟩ <;> cases ht <;> decide +kernel

theorem local2 (p : Map × Loc) (_ : p ∈ two) (names : List Str) (b : Bytes) (t : Rat) (h : IsFile s2.world.fs (p.2 ++ names) b t) : Before10000 t :=
  by
  refine ClientExample.before_of ?_ _ b t h
  intro p hp
  simp only [s2, fs2, List.mem_cons, List.not_mem_nil, or_false] at hp
  rcases hp with rfl | rfl | rfl | rfl | rfl | rfl | rfl <;> first | exact .inl rfl | exact .inr ⟨_, rfl⟩

/-- the hypotheses of C79 hold -/
theorem succeeds2 : (baselineOrAudit env2 cfg2 true false s2).2 = .ok () := by
  refine C79_sites_succeed_partial env2 ratFt_ok cfg2 true s2 two (listOf rl) sites2 (by intro t h; cases h) keyed2 (by decide +kernel)
    (by decide +kernel) (by decide) below2 "http://s/rl.xml".toList (by decide +kernel) (by decide) (.inl rfl) rfl (fun u _ _ => delivers2 u)
    (fun _ _ => rfl) (fun _ _ => rfl) ⟨?_, ?_, ?_⟩ years2 local2 [] (by simp) rfl
  · intro a b ha hb hab
    rcases listed2 ha with rfl | rfl <;> rcases listed2 hb with rfl | rfl
    · rfl
    · exact absurd hab (by decide)
    · exact absurd hab (by decide)
    · rfl
  · intro l hl
    rcases listed2 hl with rfl | rfl <;> decide
  · intro l hl p hp hne
    rw [List.prefix_iff_eq_take] at hp
    have hlt : p.length < l.length := by
      rcases Nat.lt_or_ge p.length l.length with h | h
      · exact h
      · exact absurd (hp.trans (List.take_of_length_le h)) hne
    have key : s2.world.fs.get p = none ∨ s2.world.fs.get p = some .dir := by
      rw [hp]
      generalize p.length = k at hlt
      rcases listed2 hl with rfl | rfl
      · exact (by decide : ∀ k < 2, s2.world.fs.get (["d".toList, "a".toList].take k) = none ∨
          s2.world.fs.get (["d".toList, "a".toList].take k) = some .dir) k hlt
      · exact (by decide : ∀ k < 4, s2.world.fs.get (["e".toList, "f".toList, "b".toList, "c".toList].take k) = none ∨
          s2.world.fs.get (["e".toList, "f".toList, "b".toList, "c".toList].take k) = some .dir) k hlt
    rintro ⟨b, t, hf⟩
    unfold IsFile at hf
    rcases key with e | e <;> (rw [e] at hf; cases hf)

/-- what the run leaves behind: C50 applies, and so does C51 to a second run -/
example :
    let r := baselineOrAudit env2 cfg2 true false s2
    r.1.world.fs.get ["d".toList, "a".toList] = some (.file [1, 2] 100) ∧
    r.1.world.fs.get ["e".toList, "f".toList, "b".toList, "c".toList] = some (.file [1, 2] 200) ∧
    r.1.world.fs.get ["d".toList, "old".toList] = none ∧ r.1.world.fs.get ["e".toList, "f".toList, "old".toList] = none ∧
    r.1.world.fs.get ["e".toList, "other".toList] = some (.file [7] 50) ∧
    doneBetween r.1 (baselineOrAudit env2 cfg2 true false r.1).1 = [] := by
  refine ⟨by decide +kernel, by decide +kernel, by decide +kernel, by decide +kernel, by decide +kernel, ?_⟩
  refine (C51_sites_partial env2 cfg2 s2 two (listOf rl) sites2 (by intro t h; cases h) keyed2 (by decide +kernel) below2 rfl rfl (by decide)
    (fun _ _ => rfl) ?_ ?_ succeeds2 env2 _ false true rfl (by decide +kernel) rfl ?_).2.2.1
  · intro u r h
    simp only [listOf, rl, List.map_cons, List.map_nil, List.mem_cons, Prod.mk.injEq, List.not_mem_nil, or_false] at h
    rcases h with ⟨-, rfl⟩ | ⟨-, rfl⟩ <;> simp
  · intro u r h tr b hb n hn
    have hb2 : b = [1, 2] := by
      simp only [env2] at hb
      split at hb
      · simp at hb
      · simp at hb; exact hb.symm
    subst hb2
    simp only [listOf, rl, List.map_cons, List.map_nil, List.mem_cons, Prod.mk.injEq, List.not_mem_nil, or_false] at h
    rcases h with ⟨-, rfl⟩ | ⟨-, rfl⟩ <;> (simp at hn; rw [← hn]; rfl)
  · intro t ht
    have hh : (baselineOrAudit env2 cfg2 true false s2).1.hashes = [] := by decide +kernel
    rw [hh] at ht
    cases ht

end SitesExample
end Resync
