import Verif.Spec.ListIndex
import Verif.Proofs.SitemapDoc
import Verif.Proofs.ResourceList
import Verif.Proofs.Num

namespace Resync
open Py Resync.Spec

/-! ### Chunks -/

theorem chunkLoop_eq (m : Nat) (acc it : List Resource) :
    chunkLoop m acc it = (acc ++ it.take (max 1 (m - acc.length)), it.drop (max 1 (m - acc.length))) := by
  induction it generalizing acc with
  | nil => simp [chunkLoop]
  | cons r it ih =>
    simp only [chunkLoop]
    by_cases h : (acc ++ [r]).length ≥ m
    · rw [if_pos h]
      have : max 1 (m - acc.length) = 1 := by simp at h; omega
      rw [this]; simp
    · rw [if_neg h, ih]
      have : max 1 (m - acc.length) = max 1 (m - (acc ++ [r]).length) + 1 := by simp at h ⊢; omega
      rw [this]; simp

theorem getChunk_first (m : Nat) (it : List Resource) :
    getResourcesChunk (some m) it none =
      .ok (it.take (max 1 m), (it.drop (max 1 m)).head?, (it.drop (max 1 m)).tail) := by
  simp only [getResourcesChunk, chunkLoop_eq, Option.toList, List.nil_append, List.length_nil, Nat.sub_zero]
  cases it.drop (max 1 m) <;> rfl

theorem getChunk_next (m : Nat) (it : List Resource) (nxt : Option Resource) (h : nxt = none → it = []) :
    getResourcesChunk (some m) it nxt =
      .ok ((nxt.toList ++ it).take (max 2 m), ((nxt.toList ++ it).drop (max 2 m)).head?,
        ((nxt.toList ++ it).drop (max 2 m)).tail) := by
  cases nxt with
  | none => rw [h rfl]; simp [getResourcesChunk, chunkLoop]
  | some r =>
    simp only [getResourcesChunk, chunkLoop_eq, Option.toList, List.length_singleton, List.singleton_append]
    have : max 2 m = max 1 (m - 1) + 1 := by omega
    rw [this, List.take_succ_cons, List.drop_succ_cons]
    cases it.drop (max 1 (m - 1)) <;> rfl

theorem head_tail_list {α : Type} (l : List α) : l.head?.toList ++ l.tail = l := by cases l <;> rfl

theorem slices_nil {α : Type} {m : Nat} (hm : 0 < m) : slices m ([] : List α) = [] := by
  have : (0 + m - 1) / m = 0 := Nat.div_eq_of_lt (by omega)
  unfold slices
  rw [List.length_nil, this]; rfl

theorem slices_count {m n : Nat} (hm : 0 < m) (hn : 0 < n) : (n + m - 1) / m = (n - m + m - 1) / m + 1 := by
  by_cases h : n < m
  · have h1 : n - m + m - 1 = m - 1 := by omega
    rw [h1, Nat.div_eq_of_lt (by omega : m - 1 < m)]
    have : n + m - 1 = (n - 1) + m := by omega
    rw [this, Nat.add_div_right _ hm, Nat.div_eq_of_lt (by omega)]
  · have : n + m - 1 = (n - m + m - 1) + m := by omega
    rw [this, Nat.add_div_right _ hm]

theorem slices_cons {α : Type} {m : Nat} (hm : 0 < m) {l : List α} (hl : l ≠ []) :
    slices m l = l.take m :: slices m (l.drop m) := by
  have hpos : 0 < l.length := List.length_pos_iff.mpr hl
  unfold slices
  rw [slices_count hm hpos, List.length_drop, List.range_succ_eq_map, List.map_cons, List.map_map]
  congr 1
  · simp
  · apply List.map_congr_left
    intro i _
    simp only [Function.comp, List.drop_drop]
    rw [Nat.succ_mul, Nat.add_comm]

theorem slices_induct {α : Type} {m : Nat} (hm : 0 < m) {P : List α → Prop} (h0 : P [])
    (hs : ∀ l, l ≠ [] → P (l.drop m) → P l) (l : List α) : P l := by
  induction h : l.length using Nat.strongRecOn generalizing l with
  | ind n ih =>
    by_cases hl : l = []
    · rw [hl]; exact h0
    · have hpos : 0 < l.length := List.length_pos_iff.mpr hl
      exact hs l hl (ih (l.drop m).length (by rw [List.length_drop]; omega) _ rfl)

theorem slices_flatten {α : Type} {m : Nat} (hm : 0 < m) (l : List α) : (slices m l).flatten = l := by
  refine slices_induct (P := fun l => (slices m l).flatten = l) hm ?_ ?_ l
  · rw [slices_nil hm]; rfl
  · intro l hl ih; rw [slices_cons hm hl, List.flatten_cons, ih, List.take_append_drop]

theorem slices_bound {α : Type} {m : Nat} (hm : 0 < m) (l : List α) :
    ∀ c ∈ slices m l, c ≠ [] ∧ c.length ≤ m := by
  refine slices_induct (P := fun l => ∀ c ∈ slices m l, c ≠ [] ∧ c.length ≤ m) hm ?_ ?_ l
  · rw [slices_nil hm]; simp
  · intro l hl ih c hc
    rw [slices_cons hm hl] at hc
    rcases List.mem_cons.mp hc with rfl | hc
    · refine ⟨?_, by rw [List.length_take]; omega⟩
      intro h
      rw [List.take_eq_nil_iff] at h
      rcases h with h | h
      · omega
      · exact hl h
    · exact ih c hc

/-! ### The loop over the components, without iterators -/

def entryOf (env : StatEnv) (basename : Str) (k : Nat) (u : Str) : Resource where
  uri := u
  timestamp := some (env.mtime (partName basename k))
  md5 := some (env.md5 (partName basename k))

def partDoc (l : LBI) (index_uri : Str) (chunk : List Resource) : Except SmErr Elem :=
  resourcesAsXml l.sitemap (defaultCapability l.md l.capability_name) (setIndexLink l.ln index_uri) chunk false

def partsRun (l : LBI) (env : StatEnv) (basename index_uri : Str) :
    List (List Resource) → List Resource → List FsEff × Except LbErr (List Resource)
  | [], index => ([], .ok index)
  | chunk :: cs, index =>
    match mapFile l.mapper (partName basename index.length) with
    | .error e => ([], .error e)
    | .ok uri =>
      match writeDoc (partName basename index.length) (partDoc l index_uri chunk) with
      | (effs, .error e) => (effs, .error e)
      | (effs, .ok ()) =>
        match partsRun l env basename index_uri cs (index ++ [entryOf env basename index.length uri]) with
        | (effs', res) => (effs ++ effs', res)

theorem writeParts_eq (l : LBI) (env : StatEnv) (basename index_uri : Str) (m : Nat)
    (hm : l.max_sitemap_entries = some m) (n : Nat) : ∀ (chunk : List Resource) (nxt : Option Resource)
    (it index : List Resource), (nxt = none → it = []) → (chunk = [] → nxt = none) →
    (nxt.toList ++ it).length + (if chunk = [] then 1 else 2) ≤ n →
    writeParts l env basename index_uri n chunk nxt it index =
      partsRun l env basename index_uri
        (if chunk = [] then [] else chunk :: slices (max 2 m) (nxt.toList ++ it)) index := by
  induction n with
  | zero => intro chunk nxt it index _ _ h; exfalso; split at h <;> omega
  | succ n ih =>
    intro chunk nxt it index h1 h2 h3
    by_cases hc : chunk = []
    · simp only [writeParts, hc, if_true, partsRun]
    · rw [if_neg hc] at h3
      simp only [writeParts, hc, if_false, partsRun]
      cases hmf : mapFile l.mapper (partName basename index.length) with
      | error e => rfl
      | ok uri =>
        simp only [partDoc]
        rcases hw : writeDoc (partName basename index.length) (resourcesAsXml l.sitemap
          (defaultCapability l.md l.capability_name) (setIndexLink l.ln index_uri) chunk false) with ⟨effs, e | ⟨⟩⟩
        · rfl
        · simp only [hm, getChunk_next m it nxt h1]
          have hL : ((nxt.toList ++ it).drop (max 2 m)).head?.toList ++ ((nxt.toList ++ it).drop (max 2 m)).tail =
            (nxt.toList ++ it).drop (max 2 m) := head_tail_list _
          rw [ih]
          · rw [hL]
            by_cases hn : nxt.toList ++ it = []
            · rw [hn, slices_nil (by omega), List.take_nil, if_pos rfl]; rfl
            · have : (nxt.toList ++ it).take (max 2 m) ≠ [] := by
                rw [ne_eq, List.take_eq_nil_iff]; rintro (h | h)
                · omega
                · exact hn h
              rw [if_neg this, slices_cons (by omega) hn]; rfl
          · intro h
            rw [List.head?_eq_none_iff] at h; rw [h]; rfl
          · intro h
            rw [List.take_eq_nil_iff] at h
            rcases h with h | h
            · omega
            · rw [h]; simp
          · rw [hL, List.length_drop]
            by_cases hn : nxt.toList ++ it = []
            · rw [hn]; simp only [List.take_nil, if_true, List.length_nil]; omega
            · have := List.length_pos_iff.mpr hn
              split <;> omega

/-- The chunks that write() makes of the entries `R`. -/
def chunkSeq (m : Nat) (R : List Resource) : List (List Resource) :=
  R.take (max 1 m) :: slices (max 2 m) (R.drop (max 1 m))

theorem chunkSeq_eq {m : Nat} (hm : 2 ≤ m) {R : List Resource} (hR : R ≠ []) : chunkSeq m R = slices m R := by
  have h1 : max 1 m = m := by omega
  have h2 : max 2 m = m := by omega
  rw [chunkSeq, h1, h2, slices_cons (by omega) hR]

def indexDoc (l : LBI) (index_uri : Str) (index : List Resource) : Except SmErr Elem :=
  resourcesAsXml l.sitemap (defaultCapability l.md l.capability_name) (sharedIndexLink l.ln index_uri) index true

/-- write() of more entries than fit in one file -/
theorem write_multi (l : LBI) (env : StatEnv) (basename : Str) (m : Nat) (hm : l.max_sitemap_entries = some m)
    (hlen : max 1 m < l.resources.length) :
    l.write env basename =
      if ¬ l.allow_multifile then ([], .error .index)
      else
        match mapFile l.mapper basename with
        | .error e => ([], .error e)
        | .ok index_uri =>
          match partsRun l env basename index_uri (chunkSeq m l.resources) [] with
          | (effs, .error e) => (effs, .error e)
          | (effs, .ok index) =>
            match writeDoc basename (indexDoc l index_uri index) with
            | (effs', res) => (effs ++ effs', res) := by
  have hne : l.resources.drop (max 1 m) ≠ [] := by
    rw [ne_eq, List.drop_eq_nil_iff]; omega
  obtain ⟨x, t, hxt⟩ : ∃ x t, l.resources.drop (max 1 m) = x :: t := by
    cases h : l.resources.drop (max 1 m) with
    | nil => exact absurd h hne
    | cons x t => exact ⟨x, t, rfl⟩
  have hc : l.resources.take (max 1 m) ≠ [] := by
    rw [ne_eq, List.take_eq_nil_iff]; rintro (h | h)
    · omega
    · rw [h] at hlen; simp at hlen
  have hl := congrArg List.length hxt
  rw [List.length_drop, List.length_cons] at hl
  unfold LBI.write
  rw [hm, getChunk_first, hxt]
  simp only [List.head?_cons, List.tail_cons]
  cases l.allow_multifile with
  | false => rfl
  | true =>
    simp only [not_true, if_false]
    cases mapFile l.mapper basename with
    | error e => rfl
    | ok index_uri =>
      simp only
      rw [writeParts_eq l env basename index_uri m hm _ _ _ _ _ (by simp) (by simp [hc]) (by
        rw [if_neg hc]; simp only [Option.toList, List.singleton_append, List.length_cons]; omega), if_neg hc]
      rw [chunkSeq, hxt]; rfl

/-- write() of entries that fit in one file -/
theorem write_single (l : LBI) (env : StatEnv) (basename : Str) (m : Nat) (hm : l.max_sitemap_entries = some m)
    (hlen : l.resources.length ≤ max 1 m) :
    l.write env basename = writeDoc basename (resourcesAsXml l.sitemap
      (defaultCapability l.md l.capability_name) l.ln l.resources l.sitemapindex) := by
  unfold LBI.write
  have h1 : l.resources.drop (max 1 m) = [] := by rw [List.drop_eq_nil_iff]; omega
  rw [hm, getChunk_first, h1, List.take_of_length_le hlen]
  rfl

/-! ### Successful runs -/

def partEffs (basename : Str) : Nat → List Elem → List FsEff
  | _, [] => []
  | k, t :: ts => .openW (partName basename k) :: .finish (partName basename k) t :: partEffs basename (k + 1) ts

def entriesOf (env : StatEnv) (basename : Str) : Nat → List Str → List Resource
  | _, [] => []
  | k, u :: us => entryOf env basename k u :: entriesOf env basename (k + 1) us

theorem partsRun_ok (l : LBI) (env : StatEnv) (basename index_uri : Str) (cs : List (List Resource)) :
    ∀ (index : List Resource) (effs : List FsEff) (index' : List Resource),
    partsRun l env basename index_uri cs index = (effs, .ok index') ↔
      ∃ docs us, List.Forall₂ (fun c t => partDoc l index_uri c = .ok t) cs docs ∧ us.length = cs.length ∧
        (∀ i (h : i < us.length), mapFile l.mapper (partName basename (index.length + i)) = .ok us[i]) ∧
        effs = partEffs basename index.length docs ∧ index' = index ++ entriesOf env basename index.length us := by
  induction cs with
  | nil =>
    intro index effs index'
    simp only [partsRun]
    constructor
    · intro h; cases h
      exact ⟨[], [], .nil, rfl, by simp, rfl, by simp [entriesOf]⟩
    · rintro ⟨docs, us, h1, h2, -, rfl, rfl⟩
      cases h1
      cases us with
      | nil => simp [partEffs, entriesOf]
      | cons u us => cases h2
  | cons c cs ih =>
    intro index effs index'
    simp only [partsRun]
    constructor
    · intro h
      cases hmf : mapFile l.mapper (partName basename index.length) with
      | error e => rw [hmf] at h; cases h
      | ok u =>
        rw [hmf] at h
        simp only at h
        cases hd : partDoc l index_uri c with
        | error e => rw [hd] at h; cases h
        | ok t =>
          rw [hd] at h
          simp only [writeDoc] at h
          rcases hp : partsRun l env basename index_uri cs (index ++ [entryOf env basename index.length u]) with ⟨e', r'⟩
          rw [hp] at h
          simp only [Prod.mk.injEq] at h
          obtain ⟨rfl, rfl⟩ := h
          obtain ⟨docs, us, h1, h2, h3, rfl, rfl⟩ := (ih _ _ _).mp hp
          refine ⟨t :: docs, u :: us, .cons hd h1, by simp [h2], ?_, ?_, ?_⟩
          · intro i hi
            cases i with
            | zero => exact hmf
            | succ i =>
              have := h3 i (by simpa using hi)
              rw [List.length_append, List.length_singleton] at this
              have e : index.length + (i + 1) = index.length + 1 + i := by omega
              rw [e]; exact this
          · simp [partEffs]
          · simp [entriesOf]
    · rintro ⟨docs, us, h1, h2, h3, rfl, rfl⟩
      cases h1 with
      | @cons _ t _ docs hd h1 =>
        cases us with
        | nil => cases h2
        | cons u us =>
          have hmf : mapFile l.mapper (partName basename index.length) = .ok u := h3 0 (by simp)
          rw [hmf, hd]
          simp only [writeDoc]
          have := (ih (index ++ [entryOf env basename index.length u]) (partEffs basename (index.length + 1) docs)
            (index ++ [entryOf env basename index.length u] ++ entriesOf env basename (index.length + 1) us)).mpr
            ⟨docs, us, h1, by simpa using h2, ?_, by simp, by simp⟩
          · rw [this]; simp [partEffs, entriesOf]
          · intro i hi
            have := h3 (i + 1) (by simpa using hi)
            have e : index.length + (i + 1) = index.length + 1 + i := by omega
            rw [e] at this
            simpa using this

/-- In every run only component files are touched. -/
def FsEff.file : FsEff → Str
  | .openW f => f
  | .finish f _ => f

theorem writeDoc_files (file : Str) (d : Except SmErr Elem) : ∀ e ∈ (writeDoc file d).1, e.file = file := by
  cases d <;> simp [writeDoc, FsEff.file]

theorem partsRun_files (l : LBI) (env : StatEnv) (basename index_uri : Str) (cs : List (List Resource)) :
    ∀ (index : List Resource), ∀ e ∈ (partsRun l env basename index_uri cs index).1,
      ∃ k, e.file = partName basename k := by
  induction cs with
  | nil => intro index e he; simp [partsRun] at he
  | cons c cs ih =>
    intro index e he
    simp only [partsRun] at he
    cases hmf : mapFile l.mapper (partName basename index.length) with
    | error x => rw [hmf] at he; simp at he
    | ok u =>
      rw [hmf] at he
      simp only at he
      have hwf := writeDoc_files (partName basename index.length) (partDoc l index_uri c)
      rcases hw : writeDoc (partName basename index.length) (partDoc l index_uri c) with ⟨effs, x | ⟨⟩⟩
      · rw [hw] at he hwf; exact ⟨_, hwf e he⟩
      · rw [hw] at he hwf
        simp only [List.mem_append] at he
        rcases he with he | he
        · exact ⟨_, hwf e he⟩
        · exact ih _ e he

theorem mapFile_ok {mp : Mapper} {f u : Str} : mapFile (some mp) f = .ok u ↔ mp.dstToSrc f = .ok u := by
  simp only [mapFile]
  cases mp.dstToSrc f with
  | ok v => simp
  | error e => cases e <;> simp

/-! ### Names -/

theorem partName_injective (basename : Str) {i j : Nat} (h : partName basename i = partName basename j) : i = j := by
  unfold partName at h
  split at h
  · exact natPad_injective 5 (List.append_cancel_left (List.append_cancel_right h))
  · exact natPad_injective 5 (List.append_cancel_left (List.append_cancel_right h))

theorem natPad_ne_nil (w n : Nat) : natPad w n ≠ [] := by
  intro h
  exact natStr_ne n (List.append_eq_nil_iff.mp h).2

theorem partName_longer (basename : Str) (i : Nat) : basename.length < (partName basename i).length := by
  have hp : 0 < (natPad 5 i).length := List.length_pos_iff.mpr (natPad_ne_nil 5 i)
  unfold partName
  split
  · have : ".xml".toList.length = 4 := rfl
    rw [List.length_append, List.length_append, List.length_take, this]; omega
  · rw [List.length_append, List.length_append]; omega

theorem partName_ne (basename : Str) (i : Nat) : partName basename i ≠ basename := by
  intro h
  have := partName_longer basename i
  rw [h] at this
  omega

/-! ### Entries of documents -/

theorem elementWithAtts_tag {name : Str} {atts : Dict Str} : ∀ e ∈ elementWithAtts name atts, e.tag = name := by
  intro e he
  unfold elementWithAtts at he
  split at he
  · rw [List.mem_singleton.mp he]; rfl
  · simp at he

theorem resourceElements_tag {s : Sitemap} {item : Str} {rs : List Resource} {es : List Elem}
    (h : resourceElements s item rs = .ok es) : (∀ e ∈ es, e.tag = item) ∧ es.length = rs.length := by
  induction rs generalizing es with
  | nil => cases h; simp
  | cons r t ih =>
    simp only [resourceElements, bind_ok_iff, epure] at h
    obtain ⟨e, he, es', hes, h⟩ := h
    cases h
    obtain ⟨h1, h2⟩ := ih hes
    refine ⟨?_, by simp [h2]⟩
    intro x hx
    rcases List.mem_cons.mp hx with rfl | hx
    · simp only [resourceEtreeElement, bind_ok_iff, epure] at he
      obtain ⟨_, _, _, _, he⟩ := he
      cases he; rfl
    · exact h1 x hx

theorem resourceElements_append (s : Sitemap) (item : Str) (a b : List Resource) :
    resourceElements s item (a ++ b) =
      (resourceElements s item a >>= fun x => resourceElements s item b >>= fun y => .ok (x ++ y)) := by
  induction a with
  | nil =>
    simp only [List.nil_append, resourceElements, ebind_ok]
    cases resourceElements s item b <;> rfl
  | cons r t ih =>
    simp only [List.cons_append, resourceElements, ih]
    cases resourceEtreeElement s r item with
    | error e => rfl
    | ok e =>
      simp only [ebind_ok]
      cases resourceElements s item t with
      | error e => rfl
      | ok x =>
        simp only [ebind_ok]
        cases resourceElements s item b <;> rfl

/-- the entries of a written document -/
theorem resourcesAsXml_ok {s : Sitemap} {md : Dict Str} {ln : List Link} {rs : List Resource} {index : Bool} {t : Elem} :
    resourcesAsXml s md ln rs index = .ok t ↔ ∃ es,
      resourceElements s (if index then "sitemap".toList else "url".toList) rs = .ok es ∧
      t = .mk (if index then "sitemapindex".toList else "urlset".toList)
        [(sXmlns, SITEMAP_NS), ("xmlns:rs".toList, RS_NS)] (if s.pretty_xml then some "\n".toList else none)
        (ln.flatMap (elementWithAtts "rs:ln".toList) ++ elementWithAtts "rs:md".toList md ++ es) := by
  simp only [resourcesAsXml, bind_ok_iff, epure]
  constructor
  · rintro ⟨es, h1, h2⟩; cases h2; exact ⟨es, h1, rfl⟩
  · rintro ⟨es, h1, rfl⟩; exact ⟨es, h1, rfl⟩

theorem findall_doc (name : Str) (h1 : "rs:ln".toList ≠ name) (h2 : "rs:md".toList ≠ name) (t : Str) (a : Dict Str)
    (x : Option Str) (md : Dict Str) (ln : List Link) (es : List Elem) (hes : ∀ e ∈ es, e.tag = name) :
    (Elem.mk t a x (ln.flatMap (elementWithAtts "rs:ln".toList) ++ elementWithAtts "rs:md".toList md ++ es)).findall name
      = es := by
  show List.filter _ (ln.flatMap (elementWithAtts "rs:ln".toList) ++ elementWithAtts "rs:md".toList md ++ es) = es
  rw [List.filter_append, List.filter_append, filter_tag_all hes,
    filter_tag_none (t := name) (t' := "rs:ln".toList) ?_ h1, filter_tag_none (t' := "rs:md".toList) elementWithAtts_tag h2]
  · rfl
  · intro e he
    rw [List.mem_flatMap] at he
    obtain ⟨l, _, he⟩ := he
    exact elementWithAtts_tag e he

theorem entries_url {s : Sitemap} {md : Dict Str} {ln : List Link} {rs : List Resource} {t : Elem}
    (h : resourcesAsXml s md ln rs false = .ok t) :
    resourceElements s "url".toList rs = .ok (entries "url" t) := by
  obtain ⟨es, h1, rfl⟩ := resourcesAsXml_ok.mp h
  have h1' : resourceElements s "url".toList rs = .ok es := h1
  rw [h1']
  congr 1
  exact (findall_doc "url".toList (by decide) (by decide) _ _ _ md ln es (resourceElements_tag h1').1).symm

theorem entries_sitemap {s : Sitemap} {md : Dict Str} {ln : List Link} {rs : List Resource} {t : Elem}
    (h : resourcesAsXml s md ln rs true = .ok t) :
    resourceElements s "sitemap".toList rs = .ok (entries "sitemap" t) := by
  obtain ⟨es, h1, rfl⟩ := resourcesAsXml_ok.mp h
  have h1' : resourceElements s "sitemap".toList rs = .ok es := h1
  rw [h1']
  congr 1
  exact (findall_doc "sitemap".toList (by decide) (by decide) _ _ _ md ln es (resourceElements_tag h1').1).symm

/-- the URIs of written entries -/
theorem resourceElements_uris {s : Sitemap} {item : Str} {rs : List Resource} {es : List Elem}
    (h : resourceElements s item rs = .ok es) : es.map entryUri = rs.map (fun r => some r.uri) := by
  induction rs generalizing es with
  | nil => cases h; rfl
  | cons r t ih =>
    simp only [resourceElements, bind_ok_iff, epure] at h
    obtain ⟨e, he, es', hes, h⟩ := h
    cases h
    rw [List.map_cons, List.map_cons, ih hes]
    congr 1
    simp only [resourceEtreeElement, bind_ok_iff, epure] at he
    obtain ⟨_, _, _, _, he⟩ := he
    cases he
    rfl

/-- the entries of the components together are those of the document for the whole list -/
theorem components_entries {s : Sitemap} {md : Dict Str} {ln : List Link} {cs : List (List Resource)}
    {docs : List Elem} (h : List.Forall₂ (fun c t => resourcesAsXml s md ln c false = .ok t) cs docs) :
    resourceElements s "url".toList cs.flatten = .ok (docs.flatMap (entries "url")) := by
  induction h with
  | nil => rfl
  | cons h _ ih =>
    rw [List.flatten_cons, resourceElements_append, entries_url h, ebind_ok, ih, ebind_ok, List.flatMap_cons]

theorem written_append (a b : List FsEff) : written (a ++ b) = written a ++ written b := by
  induction a with
  | nil => rfl
  | cons e t ih => cases e <;> simp [written, ih]

theorem written_partEffs (basename : Str) (k : Nat) (docs : List Elem) :
    written (partEffs basename k docs) = docs.mapIdx (fun i t => (partName basename (k + i), t)) := by
  induction docs generalizing k with
  | nil => rfl
  | cons t ts ih =>
    simp only [partEffs, written, ih, List.mapIdx_cons, Nat.add_zero]
    congr 1
    congr 1
    funext i t
    congr 2
    omega

/-- a successful write of several files -/
theorem write_multi_ok (l : LBI) (env : StatEnv) (basename : Str) (m : Nat) (hm : l.max_sitemap_entries = some m)
    (hlen : max 1 m < l.resources.length) (hok : (l.write env basename).2 = .ok ()) :
    ∃ index_uri docs us idx, mapFile l.mapper basename = .ok index_uri ∧
      List.Forall₂ (fun c t => partDoc l index_uri c = .ok t) (chunkSeq m l.resources) docs ∧
      us.length = (chunkSeq m l.resources).length ∧
      (∀ i (h : i < us.length), mapFile l.mapper (partName basename i) = .ok us[i]) ∧
      indexDoc l index_uri (entriesOf env basename 0 us) = .ok idx ∧
      (l.write env basename).1 = partEffs basename 0 docs ++ [.openW basename, .finish basename idx] := by
  rw [write_multi l env basename m hm hlen] at hok ⊢
  cases ha : l.allow_multifile with
  | false => rw [ha] at hok; simp at hok
  | true =>
    rw [ha] at hok
    simp only [not_true, if_false] at hok ⊢
    cases hmf : mapFile l.mapper basename with
    | error e => rw [hmf] at hok; simp at hok
    | ok iu =>
      rw [hmf] at hok
      simp only at hok ⊢
      rcases hp : partsRun l env basename iu (chunkSeq m l.resources) [] with ⟨effs, e | index⟩
      · rw [hp] at hok; simp at hok
      · rw [hp] at hok
        simp only at hok ⊢
        obtain ⟨docs, us, h1, h2, h3, h4, h5⟩ := (partsRun_ok l env basename iu _ _ _ _).mp hp
        cases hd : indexDoc l iu index with
        | error e => rw [hd] at hok; simp [writeDoc] at hok
        | ok idx =>
          refine ⟨iu, docs, us, idx, rfl, h1, h2, ?_, ?_, ?_⟩
          · intro i hi; have := h3 i hi; simpa using this
          · rw [h5] at hd; simpa using hd
          · simp only [writeDoc, h4]; rfl

/-- sufficient for a successful write -/
theorem write_multi_success (l : LBI) (env : StatEnv) (basename : Str) (m : Nat) (hm : l.max_sitemap_entries = some m)
    (hlen : max 1 m < l.resources.length) (ha : l.allow_multifile = true) (index_uri : Str) (docs : List Elem)
    (us : List Str) (idx : Elem) (h0 : mapFile l.mapper basename = .ok index_uri)
    (h1 : List.Forall₂ (fun c t => partDoc l index_uri c = .ok t) (chunkSeq m l.resources) docs)
    (h2 : us.length = (chunkSeq m l.resources).length)
    (h3 : ∀ i (h : i < us.length), mapFile l.mapper (partName basename i) = .ok us[i])
    (h4 : indexDoc l index_uri (entriesOf env basename 0 us) = .ok idx) :
    l.write env basename = (partEffs basename 0 docs ++ [.openW basename, .finish basename idx], .ok ()) := by
  rw [write_multi l env basename m hm hlen, ha]
  simp only [not_true, if_false, h0]
  have := (partsRun_ok l env basename index_uri (chunkSeq m l.resources) [] (partEffs basename 0 docs)
    (entriesOf env basename 0 us)).mpr ⟨docs, us, h1, h2, by simpa using h3, rfl, rfl⟩
  rw [this]
  simp only [h4, writeDoc]

end Resync
