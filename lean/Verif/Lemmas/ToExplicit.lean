import Verif.Lemmas.VocabLookup
import Verif.Spec.Firsts
/-! Conversion of bucket vocabularies to explicit vocabularies. -/

namespace FF

section Firsts

variable {α : Type} [DecidableEq α]

theorem InFirstOrder.nil : InFirstOrder ([] : List α) [] := by simp [InFirstOrder]

theorem InFirstOrder.snoc_mem {l f : List α} {x : α} (h : InFirstOrder l f) (hx : x ∈ l) :
    InFirstOrder (l ++ [x]) f := by
  obtain ⟨h1, h2, h3⟩ := h
  refine ⟨h1, fun y => ?_, ?_⟩
  · rw [h2]; simp; intro hy; rw [hy]; exact hx
  · refine List.Pairwise.imp_of_mem ?_ h3
    intro a b ha hb hab
    rw [List.idxOf_append_of_mem ((h2 a).mp ha), List.idxOf_append_of_mem ((h2 b).mp hb)]
    exact hab

theorem InFirstOrder.snoc_new {l f : List α} {x : α} (h : InFirstOrder l f) (hx : x ∉ l) :
    InFirstOrder (l ++ [x]) (f ++ [x]) := by
  obtain ⟨h1, h2, h3⟩ := h
  have hxf : x ∉ f := fun hm => hx ((h2 x).mp hm)
  refine ⟨?_, fun y => ?_, ?_⟩
  · rw [List.nodup_append]
    refine ⟨h1, by simp, ?_⟩
    intro a ha b hb
    rw [List.mem_singleton] at hb
    rintro rfl
    exact hxf (hb ▸ ha)
  · simp [h2]
  · rw [List.pairwise_append]
    refine ⟨?_, by simp, ?_⟩
    · refine List.Pairwise.imp_of_mem ?_ h3
      intro a b ha hb hab
      rw [List.idxOf_append_of_mem ((h2 a).mp ha), List.idxOf_append_of_mem ((h2 b).mp hb)]
      exact hab
    · intro a ha b hb
      rw [List.mem_singleton] at hb
      subst hb
      rw [List.idxOf_append_of_mem ((h2 a).mp ha), List.idxOf_append_of_notMem hx]
      have := List.idxOf_lt_length_of_mem ((h2 a).mp ha)
      omega

end Firsts

theorem foldRes_append {α β : Type} (f : β → α → Res β) (b : β) (xs ys : List α) :
    foldRes f b (xs ++ ys) = foldRes f b xs >>= fun b' => foldRes f b' ys := by
  induction xs generalizing b with
  | nil => rfl
  | cons x xs ih =>
    simp only [List.cons_append, foldRes]
    cases f b x with
    | error e => rfl
    | ok b' => exact ih b'

theorem foldRes_flat {α β γ : Type} (f : β → α → Res β) (g : γ → Res (List α)) (h : γ → List α)
    (cs : List γ) (hg : ∀ c ∈ cs, g c = .ok (h c)) (b : β) :
    foldRes (fun b c => do
      let xs ← g c
      foldRes f b xs) b cs = foldRes f b (cs.flatMap h) := by
  induction cs generalizing b with
  | nil => rfl
  | cons c cs ih =>
    rw [List.flatMap_cons, foldRes_append, foldRes, hg c (by simp)]
    show foldRes f b (h c) >>= _ = _
    congr 1
    funext b'
    exact ih (fun x hx => hg x (List.mem_cons_of_mem _ hx)) b'

/-- The bucket of an n-gram. -/
def bucketOf (ix : Indexer) (g : PyStr) : Int :=
  match ix.call g with
  | .ok (some k) => k
  | _ => 0

def CallOk (ix : Indexer) (g : PyStr) : Prop := ix.call g = .ok (some (bucketOf ix g))

theorem callOk_of {ix : Indexer} {g : PyStr} {k : Int} (h : ix.call g = .ok (some k)) :
    CallOk ix g := by
  unfold CallOk bucketOf; rw [h]

/-- The pairs `(b, position of b)`. -/
def enumBuckets : List Int → Dict Int Int := fun bs => (bs.zip (List.range bs.length)).map
  fun p => (p.1, (p.2 : Int))

theorem enumBuckets_snoc (bs : List Int) (b : Int) :
    enumBuckets (bs ++ [b]) = enumBuckets bs ++ [(b, (bs.length : Int))] := by
  unfold enumBuckets
  rw [List.length_append, List.length_singleton, List.range_succ, List.zip_append (by simp)]
  simp

theorem enumBuckets_keys (bs : List Int) : Dict.keys (enumBuckets bs) = bs := by
  unfold enumBuckets Dict.keys
  rw [List.map_map]
  exact List.map_fst_zip (by simp)

theorem length_enumBuckets (bs : List Int) : (enumBuckets bs).length = bs.length := by
  simp [enumBuckets]

theorem mem_enumBuckets {bs : List Int} {b i : Int} :
    (b, i) ∈ enumBuckets bs ↔ ∃ n : Nat, bs[n]? = some b ∧ i = n := by
  unfold enumBuckets
  rw [List.mem_map]
  constructor
  · rintro ⟨⟨x, n⟩, hm, h⟩
    simp only [Prod.mk.injEq] at h
    obtain ⟨rfl, rfl⟩ := h
    exact ⟨n, mem_enumItems.mp hm, rfl⟩
  · rintro ⟨n, hn, rfl⟩
    exact ⟨(b, n), mem_enumItems.mpr hn, rfl⟩

theorem get?_enumBuckets {bs : List Int} (hn : bs.Nodup) {b i : Int} :
    Dict.get? (enumBuckets bs) b = some i ↔ ∃ n : Nat, bs[n]? = some b ∧ i = n := by
  rw [← mem_enumBuckets]
  exact ⟨Dict.get?_mem, Dict.get?_of_mem (by rw [enumBuckets_keys]; exact hn)⟩

/-- Loop invariant: `P` are the n-grams seen so far. -/
structure B2EInv (ix : Indexer) (P : List PyStr) (st : B2E) (bs : List Int) : Prop where
  list : InFirstOrder P st.ngramList
  keys : Dict.keys st.ngramIndex = st.ngramList
  buckets : InFirstOrder (P.map (bucketOf ix)) bs
  idx : st.idxIndex = enumBuckets bs
  get : ∀ g ∈ P, Dict.get? st.ngramIndex g = Dict.get? st.idxIndex (bucketOf ix g)

theorem b2eStep_inv {ix : Indexer} {P : List PyStr} {st : B2E} {bs : List Int}
    (h : B2EInv ix P st bs) {g : PyStr} (hg : CallOk ix g) :
    ∃ st' bs', b2eStep ix st g = .ok st' ∧ B2EInv ix (P ++ [g]) st' bs' := by
  have hmem : (Dict.get? st.ngramIndex g).isSome ↔ g ∈ P := by
    rw [Dict.get?_isSome, h.keys, h.list.2.1]
  unfold b2eStep
  by_cases hs : (Dict.get? st.ngramIndex g).isSome
  · rw [if_pos hs]
    have hP := hmem.mp hs
    refine ⟨st, bs, rfl, h.list.snoc_mem hP, h.keys, ?_, h.idx, ?_⟩
    · rw [List.map_append]
      exact h.buckets.snoc_mem (List.mem_map_of_mem hP)
    · intro x hx
      rcases List.mem_append.mp hx with hx | hx
      · exact h.get x hx
      · rw [List.mem_singleton] at hx; rw [hx]; exact h.get g hP
  · rw [if_neg hs]
    have hP : g ∉ P := fun hm => hs (hmem.mpr hm)
    rw [hg]
    simp only [res_bind_ok]
    have hkeys : g ∉ Dict.keys st.ngramIndex := by
      rw [h.keys, h.list.2.1]; exact hP
    have hlist := h.list.snoc_new hP
    by_cases hb : (Dict.get? st.idxIndex (bucketOf ix g)).isSome
    · simp only [hb, if_true]
      obtain ⟨v, hv⟩ := Option.isSome_iff_exists.mp hb
      rw [hv]
      refine ⟨_, bs, rfl, hlist, ?_, ?_, h.idx, ?_⟩
      · rw [Dict.keys_set, if_neg hkeys, h.keys]
      · rw [List.map_append]
        refine h.buckets.snoc_mem ?_
        rw [← h.buckets.2.1]
        rw [Dict.get?_isSome, h.idx, enumBuckets_keys] at hb
        exact hb
      · intro x hx
        rw [Dict.get?_set]
        rcases List.mem_append.mp hx with hx | hx
        · rw [if_neg (by rintro rfl; exact hP hx)]; exact h.get x hx
        · rw [List.mem_singleton] at hx; rw [hx, if_pos rfl]; exact hv.symm
    · simp only [hb, Bool.false_eq_true, if_false]
      have hb' : bucketOf ix g ∉ bs := by
        intro hm
        apply hb
        rw [Dict.get?_isSome, h.idx, enumBuckets_keys]
        exact hm
      have hfresh : bucketOf ix g ∉ Dict.keys st.idxIndex := by
        rw [h.idx, enumBuckets_keys]; exact hb'
      rw [Dict.get?_set, if_pos rfl]
      refine ⟨_, bs ++ [bucketOf ix g], rfl, hlist, ?_, ?_, ?_, ?_⟩
      · rw [Dict.keys_set, if_neg hkeys, h.keys]
      · rw [List.map_append]
        refine h.buckets.snoc_new ?_
        rw [← h.buckets.2.1]; exact hb'
      · simp only
        rw [Dict.set_fresh _ _ _ hfresh, h.idx, enumBuckets_snoc, length_enumBuckets]
      · intro x hx
        simp only
        rw [Dict.get?_set]
        rcases List.mem_append.mp hx with hx | hx
        · rw [if_neg (by rintro rfl; exact hP hx), Dict.get?_set, if_neg, h.get x hx]
          intro he
          apply hb'
          rw [h.buckets.2.1, he]
          exact List.mem_map_of_mem hx
        · rw [List.mem_singleton] at hx; rw [hx, if_pos rfl, Dict.get?_set, if_pos rfl]

theorem b2e_fold {ix : Indexer} (A : List PyStr) (hA : ∀ g ∈ A, CallOk ix g) {P : List PyStr}
    {st : B2E} {bs : List Int} (h : B2EInv ix P st bs) :
    ∃ st' bs', foldRes (b2eStep ix) st A = .ok st' ∧ B2EInv ix (P ++ A) st' bs' := by
  induction A generalizing P st bs with
  | nil => exact ⟨st, bs, rfl, by simpa using h⟩
  | cons g A ih =>
    obtain ⟨st1, bs1, h1, hi⟩ := b2eStep_inv h (hA g (by simp))
    obtain ⟨st2, bs2, h2, hi2⟩ := ih (fun x hx => hA x (List.mem_cons_of_mem _ hx)) hi
    refine ⟨st2, bs2, ?_, by simpa using hi2⟩
    rw [foldRes, h1]
    exact h2

theorem b2e_fold_ok {ix : Indexer} (A : List PyStr) {st st' : B2E}
    (hst : ∀ g ∈ Dict.keys st.ngramIndex, CallOk ix g)
    (h : foldRes (b2eStep ix) st A = .ok st') : ∀ g ∈ A, CallOk ix g := by
  induction A generalizing st with
  | nil => simp
  | cons g A ih =>
    rw [foldRes] at h
    obtain ⟨st1, h1, h⟩ := res_bind_inv h
    have key : CallOk ix g ∧ ∀ x ∈ Dict.keys st1.ngramIndex, CallOk ix x := by
      unfold b2eStep at h1
      split at h1
      · rename_i hs
        cases h1
        exact ⟨hst g (Dict.get?_isSome.mp hs), hst⟩
      · obtain ⟨r, hr, h1⟩ := res_bind_inv h1
        cases r with
        | none => cases h1
        | some idx =>
          simp only at h1
          have hc := callOk_of hr
          refine ⟨hc, ?_⟩
          revert h1
          split
          · intro h1; cases h1
          · intro h1
            cases h1
            intro x hx
            rw [Dict.keys_set] at hx
            split at hx
            · exact hst x hx
            · rcases List.mem_append.mp hx with hx | hx
              · exact hst x hx
              · rw [List.mem_singleton] at hx; rw [hx]; exact hc
    intro x hx
    rcases List.mem_cons.mp hx with rfl | hx
    · exact key.1
    · exact ih key.2 h x hx

/-- The n-grams of a word as `subwords` lists them. -/
def wordNgrams (ix : Indexer) (w : PyStr) : List PyStr :=
  (occs (bracketed true w).length ix.minN ix.maxN).map fun p =>
    ((bracketed true w).drop p.1).take p.2

def allNgrams (ix : Indexer) (ws : List PyStr) : List PyStr := ws.flatMap (wordNgrams ix)

theorem subwords_eq {ix : Indexer} (h : BuiltIndexer ix) (v : Vocab) (w : PyStr) :
    v.subwords ix w = .ok (wordNgrams ix w) :=
  ngrams_occs h.range.1 h.range.2 w true

theorem b2e_inv_values {ix : Indexer} {A : List PyStr} {st : B2E} {bs : List Int}
    (h : B2EInv ix A st bs) (i : Int) :
    i ∈ st.ngramIndex.map Prod.snd ↔ ∃ n : Nat, n < bs.length ∧ i = n := by
  have hk : (Dict.keys st.ngramIndex).Nodup := by rw [h.keys]; exact h.list.1
  constructor
  · intro hm
    obtain ⟨⟨g, i'⟩, hm', rfl⟩ := List.mem_map.mp hm
    have hg := Dict.get?_of_mem hk hm'
    have hgA : g ∈ A := by
      rw [← h.list.2.1, ← h.keys, ← Dict.get?_isSome, hg]; rfl
    rw [h.get g hgA, h.idx, get?_enumBuckets h.buckets.1] at hg
    obtain ⟨n, hn, rfl⟩ := hg
    exact ⟨n, (List.getElem?_eq_some_iff.mp hn).1, rfl⟩
  · rintro ⟨n, hn, rfl⟩
    have hb : bs[n] ∈ A.map (bucketOf ix) := by
      rw [← h.buckets.2.1]; exact List.getElem_mem hn
    obtain ⟨g, hg, hgb⟩ := List.mem_map.mp hb
    have := h.get g hg
    rw [hgb, h.idx, (get?_enumBuckets h.buckets.1).mpr
      ⟨n, List.getElem?_eq_getElem hn, rfl⟩] at this
    exact List.mem_map.mpr ⟨_, Dict.get?_mem this, rfl⟩

theorem b2e_valid {ix : Indexer} (hix : BuiltIndexer ix) (h32 : ix.maxN < 2 ^ 32) {A : List PyStr}
    {st : B2E} {bs : List Int} (h : B2EInv ix A st bs) :
    ExplValid ⟨st.ngramList, ix.minN, ix.maxN, st.ngramIndex, bs.length⟩ := by
  have hv := b2e_inv_values h
  have hperm : (st.ngramIndex.map Prod.snd).dedup.Perm
      ((List.range bs.length).map fun n : Nat => (n : Int)) := by
    rw [List.perm_ext_iff_of_nodup (List.nodup_dedup _)
      (List.Nodup.map (fun a b hab => by simpa using hab) List.nodup_range)]
    intro i
    rw [List.mem_dedup, hv]
    simp only [List.mem_map, List.mem_range]
    constructor
    · rintro ⟨n, hn, rfl⟩; exact ⟨n, hn, rfl⟩
    · rintro ⟨n, hn, rfl⟩; exact ⟨n, hn, rfl⟩
  refine ⟨hix.range.1, hix.range.2, h32, h.list.1, ?_, ?_, ?_, ?_⟩
  · rw [h.keys]
  · simp only
    rw [hperm.length_eq]
    simp
  · intro x hx
    obtain ⟨n, hn, rfl⟩ := (hv x).mp hx
    simp only
    omega
  · intro hne
    obtain ⟨g, hg⟩ := List.exists_mem_of_ne_nil _ hne
    have hgA := (h.list.2.1 g).mp hg
    have hb : bucketOf ix g ∈ bs := by
      rw [h.buckets.2.1]; exact List.mem_map_of_mem hgA
    have hpos := List.length_pos_of_mem hb
    rw [hv]
    exact ⟨bs.length - 1, by omega, by simp only; omega⟩

/-- What `_bucket_to_explicit` returns. -/
structure B2EResult (v : Vocab) (ix : Indexer) (v' : Vocab) (eix : ExplIndexer) (bs : List Int) :
    Prop where
  vocab : v' = ⟨v.words, enumItems v.words, some (.expl eix)⟩
  minN : eix.minN = ix.minN
  maxN : eix.maxN = ix.maxN
  valid : ExplValid eix
  ngrams : InFirstOrder (allNgrams ix v.words) eix.ngrams
  buckets : InFirstOrder ((allNgrams ix v.words).map (bucketOf ix)) bs
  bound : eix.bound = bs.length
  callOk : ∀ g ∈ allNgrams ix v.words, CallOk ix g
  call : ∀ g ∈ allNgrams ix v.words, ∃ n : Nat, bs[n]? = some (bucketOf ix g) ∧
    eix.call g = some (n : Int)
  none : ∀ g, g ∉ allNgrams ix v.words → eix.call g = none

theorem builtIndexer_max32 {ix : Indexer} (h : BuiltIndexer ix) : ix.maxN < 2 ^ 32 := by
  have := builtIndexer_wf h
  cases ix with
  | fifu ix => obtain ⟨_, _, _, _, _, h1, _⟩ := fifuNew_ok.mp this; exact h1
  | ft ix => obtain ⟨_, _, _, _, _, h1, _⟩ := ftNew_ok.mp this; exact h1
  | expl ix => exact ExplValid.max32 this

theorem bucketToExplicit_fold {v : Vocab} {ix : Indexer} (hix : BuiltIndexer ix) :
    foldRes (fun st word => do
      let gs ← v.subwords ix word
      foldRes (b2eStep ix) st gs) ⟨[], [], []⟩ v.words =
    foldRes (b2eStep ix) ⟨[], [], []⟩ (allNgrams ix v.words) :=
  foldRes_flat _ _ _ _ (fun w _ => subwords_eq hix v w) _

theorem B2EInv.init (ix : Indexer) : B2EInv ix [] ⟨[], [], []⟩ [] :=
  ⟨InFirstOrder.nil, rfl, InFirstOrder.nil, rfl, by simp⟩

theorem bucketToExplicit_ok {v : Vocab} {ix : Indexer} (hv : v.words.Nodup) (hix : BuiltIndexer ix)
    (hne : allNgrams ix v.words ≠ []) (hA : ∀ g ∈ allNgrams ix v.words, CallOk ix g) :
    ∃ v' eix bs, bucketToExplicit v ix = .ok v' ∧ B2EResult v ix v' eix bs := by
  obtain ⟨st, bs, hf, hi⟩ := b2e_fold _ hA (B2EInv.init ix)
  rw [List.nil_append] at hi
  have hval := b2e_valid hix (builtIndexer_max32 hix) hi
  have hk : (Dict.keys st.ngramIndex).Nodup := by rw [hi.keys]; exact hi.list.1
  have hlist : st.ngramList ≠ [] := by
    obtain ⟨g, hg⟩ := List.exists_mem_of_ne_nil _ hne
    exact List.ne_nil_of_mem ((hi.list.2.1 g).mpr hg)
  have hnew : ExplIndexer.new st.ngramList ix.minN ix.maxN (some st.ngramIndex) =
      .ok ⟨st.ngramList, ix.minN, ix.maxN, st.ngramIndex, bs.length⟩ :=
    (explNew_some hk).mpr ⟨hval, rfl, rfl, rfl, rfl, hlist⟩
  refine ⟨⟨v.words, enumItems v.words, some (.expl _)⟩, _, bs, ?_, rfl, rfl, rfl, hval, hi.list,
    hi.buckets, rfl, hA, ?_, ?_⟩
  · unfold bucketToExplicit
    rw [bucketToExplicit_fold hix, hf]
    simp only [res_bind_ok]
    rw [hnew]
    exact Vocab.new_ok.mpr ⟨hv, rfl⟩
  · intro g hg
    have hb : bucketOf ix g ∈ bs := by
      rw [hi.buckets.2.1]; exact List.mem_map_of_mem hg
    obtain ⟨n, hn⟩ := List.mem_iff_getElem?.mp hb
    refine ⟨n, hn, ?_⟩
    show Dict.get? st.ngramIndex g = _
    rw [hi.get g hg, hi.idx, get?_enumBuckets hi.buckets.1]
    exact ⟨n, hn, rfl⟩
  · intro g hg
    show Dict.get? st.ngramIndex g = _
    rw [Dict.get?_eq_none, hi.keys, hi.list.2.1]
    exact hg

theorem bucketToExplicit_inv {v v' : Vocab} {ix : Indexer} (hv : v.words.Nodup)
    (hix : BuiltIndexer ix) (h : bucketToExplicit v ix = .ok v') :
    allNgrams ix v.words ≠ [] ∧ ∃ eix bs, B2EResult v ix v' eix bs := by
  have h0 := h
  unfold bucketToExplicit at h
  rw [bucketToExplicit_fold hix] at h
  obtain ⟨st, hf, h⟩ := res_bind_inv h
  have hA := b2e_fold_ok (allNgrams ix v.words) (by simp) hf
  have hne : allNgrams ix v.words ≠ [] := by
    intro he
    rw [he] at hf
    cases hf
    obtain ⟨eix, h1, _⟩ := res_bind_inv h
    exact ((explNew_some (by simp)).mp h1).2.2.2.2.2 rfl
  obtain ⟨v2, eix, bs, h1, h2⟩ := bucketToExplicit_ok hv hix hne hA
  rw [h1] at h0
  cases h0
  exact ⟨hne, eix, bs, h2⟩

theorem bucketToExplicit_empty {v : Vocab} {ix : Indexer} (hix : BuiltIndexer ix)
    (he : allNgrams ix v.words = []) : bucketToExplicit v ix = .error .valueError := by
  unfold bucketToExplicit
  rw [bucketToExplicit_fold hix, he]
  simp only [foldRes, res_bind_ok]
  unfold ExplIndexer.new
  have h := hix.range
  have h32 := builtIndexer_max32 hix
  have a1 : toU32 (ix.minN : Int) = .ok ix.minN := toU32_ok.mpr ⟨rfl, by omega⟩
  have a2 : toU32 (ix.maxN : Int) = .ok ix.maxN := toU32_ok.mpr ⟨rfl, by omega⟩
  rw [a1, a2]
  rw [pyAssert_true (by simp; omega)]
  rfl

end FF
