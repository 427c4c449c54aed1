import Verif.Proofs.ReadWF
import Verif.Props.ListRead
import Verif.Spec.Client
/-
C72: what is read when a list is read, and what is refused.  That a document is not read is expressed by saying that the
result does not depend on it.
-/

namespace Resync
open Py Resync.Spec

theorem foldlM_congr {ε α β : Type} (f g : β → α → Except ε β) (l : List α) (h : ∀ a ∈ l, ∀ b, f b a = g b a) :
    ∀ b, l.foldlM f b = l.foldlM g b := by
  induction l with
  | nil => intro b; rfl
  | cons a t ih =>
    intro b
    rw [List.foldlM_cons, List.foldlM_cons, h a (by simp) b]
    have := ih (fun x hx => h x (by simp [hx]))
    cases g b a with
    | error e => rfl
    | ok b' => exact this b'

/-- C72.  A list that does not allow several files refuses a sitemapindex: reading fails, whatever is in the index, and
no other document is read. -/
theorem C72_refused (cfg : ReadCfg) (hm : cfg.allow_multifile = false) (c : Cont (Dict Resource)) (uri : Str)
    (index_only : Bool) (root : Elem) (hdoc : cfg.docAt uri = some root) (hroot : root.tag = smTag "sitemapindex") :
    (∀ c', readList cfg c uri index_only ≠ .ok c') ∧
    ∀ docAt' : Str → Option Elem, docAt' uri = some root →
      readList { cfg with docAt := docAt' } c uri index_only = readList cfg c uri index_only := by
  have key : ∀ docAt' : Str → Option Elem, docAt' uri = some root →
      readList { cfg with docAt := docAt' } c uri index_only =
        (liftSm (parseXml cfg.sitemap rlAdd c root cfg.capability_name none)).bind
          (fun _ => (.error .index : Except LbErr (Cont (Dict Resource)))) := by
    intro docAt' hd
    have e : readList { cfg with docAt := docAt' } c uri index_only =
        (liftSm (parseXml cfg.sitemap rlAdd c root cfg.capability_name none)).bind
          (fun x => if x.2.1 = true then
            (if ¬ cfg.allow_multifile = true then .error .index
             else if index_only = true then pure x.1
             else (dictUris x.1.resources).foldlM (readComponent { cfg with docAt := docAt' } uri (isFileUri cfg.uw uri)) [] >>=
               fun d => pure { x.1 with resources := d }) else pure x.1) := by
      simp only [readList, hd]; rfl
    rw [e]
    cases hp : parseXml cfg.sitemap rlAdd c root cfg.capability_name none with
    | error e => rfl
    | ok x =>
      have hx : x.2.1 = true := by
        unfold parseXml at hp
        simp only [bind_ok_iff] at hp
        obtain ⟨pi, h1, st, -, md, -, h4⟩ := hp
        have hne : ¬ root.tag = smTag "urlset" := by rw [hroot]; decide
        simp only [rootKind, if_neg hne, if_pos hroot] at h1
        cases h1; cases h4; rfl
      simp only [liftSm, Except.bind, hx, if_true, hm]
      rfl
  constructor
  · intro c' h
    rw [key cfg.docAt hdoc] at h
    cases hp : parseXml cfg.sitemap rlAdd c root cfg.capability_name none with
    | error e => rw [hp] at h; cases h
    | ok x => rw [hp] at h; cases h
  · intro docAt' hd
    rw [key _ hd, key _ hdoc]

/-- where a list at the local place `index` may take its components from when the check of authority is on: local files
to which the mapper takes URIs, and places over which the index has authority -/
def Spec.MayRead (cfg : ReadCfg) (index loc : Str) : Prop :=
  (∃ u m, isFileUri cfg.uw u = false ∧ cfg.mapper = some m ∧ m.srcToDst u = .ok loc) ∨ Authorised false index loc

theorem componentLocation_may {cfg : ReadCfg} (hc : cfg.check_url_authority = true) {index u loc : Str}
    (h : componentLocation cfg index u true = .ok loc) :
    (isFileUri cfg.uw u = false ∧ ∃ m, cfg.mapper = some m ∧ m.srcToDst u = .ok loc) ∨
      (loc = u ∧ isFileUri cfg.uw u = true ∧ Authorised false index u) := by
  unfold componentLocation at h
  simp only [if_true] at h
  cases hf : isFileUri cfg.uw u with
  | false =>
    rw [hf] at h
    simp only [Bool.false_eq_true, not_false_eq_true, if_true] at h
    cases hm : cfg.mapper with
    | none => rw [hm] at h; cases h
    | some m =>
      rw [hm] at h
      simp only at h
      cases hs : m.srcToDst u with
      | error e => rw [hs] at h; cases h
      | ok p => rw [hs] at h; cases h; exact .inl ⟨rfl, m, rfl, hs⟩
  | true =>
    rw [hf, hc] at h
    simp only [not_true, if_false, if_true] at h
    right
    cases hn : UrlAuthority.new (some index) false with
    | none => rw [hn] at h; cases h
    | some a =>
      rw [hn] at h
      simp only [Option.bind_some] at h
      cases ho : a.hasAuthorityOver u with
      | none => rw [ho] at h; cases h
      | some b =>
        rw [ho] at h
        cases b with
        | false => cases h
        | true => cases h; exact ⟨rfl, rfl, a, hn, ho⟩

/-- C72.  With the check of authority on, reading a list whose index is a local file looks at nothing but that file,
local files the mapper leads to, and places the index has authority over.  For an index that was not a local file this is
not so: `C72_violated`. -/
theorem C72_local_partial (cfg : ReadCfg) (hc : cfg.check_url_authority = true) (c : Cont (Dict Resource)) (uri : Str)
    (index_only : Bool) (hloc : isFileUri cfg.uw uri = true) (docAt' : Str → Option Elem)
    (hsame : ∀ l, l = uri ∨ Spec.MayRead cfg uri l → docAt' l = cfg.docAt l) :
    readList { cfg with docAt := docAt' } c uri index_only = readList cfg c uri index_only := by
  have hcomp : ∀ u d, readComponent { cfg with docAt := docAt' } uri (isFileUri cfg.uw uri) d u =
      readComponent cfg uri (isFileUri cfg.uw uri) d u := by
    intro u d
    rw [hloc]
    have e : componentLocation { cfg with docAt := docAt' } uri u true = componentLocation cfg uri u true := rfl
    unfold readComponent
    rw [e]
    cases h : componentLocation cfg uri u true with
    | error e => rfl
    | ok l =>
      have : docAt' l = cfg.docAt l := by
        apply hsame
        right
        rcases componentLocation_may hc h with ⟨h1, m, h2, h3⟩ | ⟨rfl, -, h3⟩
        · exact .inl ⟨u, m, h1, h2, h3⟩
        · exact .inr h3
      simp only [ebind_ok, this]
  unfold readList
  simp only [hsame uri (.inl rfl)]
  cases cfg.docAt uri with
  | none => rfl
  | some root =>
    simp only
    congr 1
    funext x
    obtain ⟨x, b, n⟩ := x
    simp only
    split
    · split
      · rfl
      · split
        · rfl
        · rw [foldlM_congr _ _ _ (fun u _ d => hcomp u d)]
    · rfl

/-- C72.  ... and when such a list has been read, each sitemap of the index was one the mapper knows or one the index has
authority over. -/
theorem C72_all_partial (cfg : ReadCfg) (hc : cfg.check_url_authority = true) (uri : Str)
    (hloc : isFileUri cfg.uw uri = true) (root : Elem) (hdoc : cfg.docAt uri = some root)
    (index : Cont (Dict Resource)) (n : Nat)
    (hparse : parseXml cfg.sitemap rlAdd { resources := [] } root cfg.capability_name none = .ok (index, true, n))
    (c : Cont (Dict Resource)) (h : readList cfg { resources := [] } uri = .ok c) (u : Str) (hu : u ∈ dkeys index.resources) :
    (∃ m p, cfg.mapper = some m ∧ m.srcToDst u = .ok p) ∨ Authorised false uri u := by
  unfold readList at h
  simp only [hdoc, hparse, liftSm, ebind_ok, if_true, Bool.false_eq_true, if_false] at h
  split at h
  · cases h
  · rw [bind_ok_iff] at h
    obtain ⟨d, hd, -⟩ := h
    have hmem : u ∈ dictUris index.resources := (sortStr_perm _).symm.subset hu
    have gen : ∀ (l : List Str) (d0 d : Dict Resource), l.foldlM (readComponent cfg uri (isFileUri cfg.uw uri)) d0 = .ok d →
        u ∈ l → ∃ loc, componentLocation cfg uri u true = .ok loc := by
      intro l
      induction l with
      | nil => intro _ _ _ h; cases h
      | cons a t ih =>
        intro d0 d h hm
        rw [List.foldlM_cons, bind_ok_iff] at h
        obtain ⟨d1, h1, h2⟩ := h
        rcases List.mem_cons.mp hm with rfl | hm
        · unfold readComponent at h1
          rw [bind_ok_iff, hloc] at h1
          obtain ⟨loc, h1, -⟩ := h1
          exact ⟨loc, h1⟩
        · exact ih _ _ h2 hm
    obtain ⟨loc, hl⟩ := gen _ _ _ hd hmem
    rcases componentLocation_may hc hl with ⟨-, m, h2, h3⟩ | ⟨rfl, -, h3⟩
    · exact .inl ⟨m, loc, h2, h3⟩
    · exact .inr h3

/-! An index and its component -/

namespace GuardExample

def leaf (tag text : Str) : Elem := .mk tag [] (some text) []
def mdOf (cap : String) : Elem := .mk (rsTag "md") [("capability".toList, cap.toList)] none []

/-- a sitemapindex with one component -/
def indexOf (u : String) : Elem :=
  .mk (smTag "sitemapindex") [] none
    [mdOf "resourcelist", .mk (smTag "sitemap") [] none [leaf (smTag "loc") u.toList]]

/-- a resource list with one resource -/
def listOf (u : String) : Elem :=
  .mk (smTag "urlset") [] none [mdOf "resourcelist", .mk (smTag "url") [] none [leaf (smTag "loc") u.toList]]

def remote : ReadCfg where
  check_url_authority := true
  docAt := fun l => if l = "http://a.org/index.xml".toList then some (indexOf "http://b.net/part.xml")
    else if l = "http://b.net/part.xml".toList then some (listOf "http://a.org/x") else none

def localCfg (component : String) : ReadCfg where
  check_url_authority := true
  docAt := fun l => if l = "/d/index.xml".toList then some (indexOf component)
    else if l = component.toList then some (listOf "http://a.org/x") else none

def uris (r : Except LbErr (Cont (Dict Resource))) : Option (List Str) :=
  match r with
  | .ok c => some (dkeys c.resources)
  | .error _ => none

/-- the hypotheses of `C72_refused` are met -/
example : ∀ c', readList { remote with allow_multifile := false } { resources := [] } "http://a.org/index.xml".toList true ≠ .ok c' :=
  (C72_refused { remote with allow_multifile := false } rfl _ _ true (indexOf "http://b.net/part.xml")
    (by simp only [remote, if_true]) (by decide)).1

/-- a local index and its component over which it has authority: read -/
example : uris (readList (localCfg "/d/part.xml") { resources := [] } "/d/index.xml".toList) = some ["http://a.org/x".toList] := by
  decide +kernel

/-- a local index which refers to a component on a server: refused, whatever is there -/
example (doc : Option Elem) : uris (readList { localCfg "https://b.net/part.xml" with
    docAt := fun l => if l = "/d/index.xml".toList then some (indexOf "https://b.net/part.xml")
      else if l = "https://b.net/part.xml".toList then doc else none }
      { resources := [] } "/d/index.xml".toList) = none := by
  have := C72_local_partial (localCfg "https://b.net/part.xml") rfl { resources := [] } "/d/index.xml".toList false (by decide)
    (fun l => if l = "/d/index.xml".toList then some (indexOf "https://b.net/part.xml")
      else if l = "https://b.net/part.xml".toList then doc else none) (by
        intro l hl
        unfold localCfg
        by_cases h1 : l = "/d/index.xml".toList
        · simp only [h1, if_true]
        · simp only [if_neg h1]
          by_cases h2 : l = "https://b.net/part.xml".toList
          · exfalso
            rcases hl with hl | ⟨u, m, -, hm, -⟩ | ⟨a, ha, hb⟩
            · exact h1 hl
            · cases hm
            · subst h2
              have ha' : UrlAuthority.new (some "/d/index.xml".toList) false = some ⟨false, [], [], "/d".toList⟩ := by
                decide +kernel
              rw [ha'] at ha
              cases ha
              have : (⟨false, [], [], "/d".toList⟩ : UrlAuthority).hasAuthorityOver "https://b.net/part.xml".toList = some false := by
                decide +kernel
              rw [this] at hb; cases hb
          · simp only [if_neg h2])
  rw [this]
  decide +kernel

end GuardExample

/-- C72 fails for an index that was fetched from a server: although the check is on, a component on another server is
read, and its resources are in the list. -/
theorem C72_violated : ∃ (cfg : ReadCfg) (c : Cont (Dict Resource)),
    cfg.check_url_authority = true ∧ cfg.docAt "http://a.org/index.xml".toList = some (GuardExample.indexOf "http://b.net/part.xml") ∧
    ¬ Authorised false "http://a.org/index.xml".toList "http://b.net/part.xml".toList ∧
    readList cfg { resources := [] } "http://a.org/index.xml".toList = .ok c ∧ dkeys c.resources = ["http://a.org/x".toList] := by
  have h : GuardExample.uris (readList GuardExample.remote { resources := [] } "http://a.org/index.xml".toList) =
      some ["http://a.org/x".toList] := by decide +kernel
  cases hr : readList GuardExample.remote { resources := [] } "http://a.org/index.xml".toList with
  | error e => rw [hr] at h; cases h
  | ok c =>
    rw [hr] at h
    refine ⟨GuardExample.remote, c, rfl, by simp only [GuardExample.remote, if_true], ?_, hr, Option.some.inj h⟩
    rintro ⟨a, ha, hb⟩
    have ha' : UrlAuthority.new (some "http://a.org/index.xml".toList) false =
      some ⟨false, "http".toList, "a.org".toList, "/".toList⟩ := by decide +kernel
    rw [ha'] at ha
    cases ha
    have : (⟨false, "http".toList, "a.org".toList, "/".toList⟩ : UrlAuthority).hasAuthorityOver "http://b.net/part.xml".toList =
      some false := by decide +kernel
    rw [this] at hb; cases hb

/-- C72.  Reading the index only: the entries of the index take the place of the resources, although the documentation
says that no resources are returned. -/
theorem C72_index_only_violated (cfg : ReadCfg) (hm : cfg.allow_multifile = true) (uri : Str) (root : Elem)
    (hdoc : cfg.docAt uri = some root) (index : Cont (Dict Resource)) (n : Nat)
    (hparse : parseXml cfg.sitemap rlAdd { resources := [] } root cfg.capability_name none = .ok (index, true, n)) :
    readList cfg { resources := [] } uri true = .ok index := by
  simp only [readList, hdoc, hparse, liftSm, ebind_ok, if_true, hm, not_true, if_false]; rfl

end Resync
