import Verif.Props.C25
import Verif.Props.C15
import Verif.Props.C26
/-! C27: the lookup methods agree. -/

namespace FF

section
variable {K : Type} [NumOps K]

theorem embed_err {e : Embeddings K} {idx : Idx} {x : PyErr} (h : e.embed idx = .error x) :
    x = .indexError := by
  unfold Embeddings.embed at h
  cases idx with
  | one i =>
    simp only at h
    cases h1 : e.storage.getOne i with
    | error y => rw [h1] at h; cases h; exact getOne_err h1
    | ok r =>
      rw [h1] at h
      simp only [res_bind_ok] at h
      cases hn : e.norms with
      | none => rw [hn] at h; cases h
      | some n =>
        rw [hn] at h
        simp only at h
        cases h2 : npGet n (i : Int) with
        | error y => rw [h2] at h; cases h; exact (npGet_err h2).1
        | ok z => rw [h2] at h; cases h
  | many is =>
    simp only at h
    cases h1 : e.storage.getMany is with
    | error y =>
      rw [h1] at h; cases h
      rw [getMany_eq] at h1
      obtain ⟨j, _, hj⟩ := mapRes_err h1
      exact getOne_err hj
    | ok r => rw [h1] at h; cases h

/-- `vocab[w]` raises `KeyError` iff `vocab.idx(w)` is `None`, and otherwise they agree. -/
theorem idx_getItem (v : Vocab) (w : PyStr) :
    v.getItem w = match v.idx w with
      | .ok (some i) => .ok i
      | .ok none => .error .keyError
      | .error x => .error x := by
  unfold Vocab.getItem Vocab.idx
  cases hs : v.sub with
  | none =>
    simp only
    cases Dict.get? v.index w <;> rfl
  | some ix =>
    simp only
    cases Dict.get? v.index w with
    | some i => rfl
    | none =>
      simp only
      cases v.subwordIndices ix w with
      | error x => rfl
      | ok is =>
        simp only [res_bind_ok]
        by_cases h : is = []
        · rw [if_neg (by simpa using h), if_neg (by simpa using h)]; rfl
        · rw [if_pos h, if_pos h]; rfl

theorem idx_err {v : Vocab} {w : PyStr} {x : PyErr} (h : v.idx w = .error x) :
    x = .unicodeEncodeError := by
  unfold Vocab.idx at h
  cases hs : v.sub with
  | none =>
    rw [hs] at h
    simp only at h
    cases hg : Dict.get? v.index w <;> rw [hg] at h <;> cases h
  | some ix =>
    rw [hs] at h
    simp only at h
    cases hg : Dict.get? v.index w with
    | some i => rw [hg] at h; cases h
    | none =>
      rw [hg] at h
      simp only at h
      cases h1 : v.subwordIndices ix w with
      | ok is =>
        rw [h1] at h
        simp only [res_bind_ok] at h
        split at h <;> cases h
      | error y =>
        rw [h1] at h
        cases h
        unfold Vocab.subwordIndices Indexer.indices at h1
        cases ix with
        | fifu ix => cases h1
        | expl ix => cases h1
        | ft ix =>
          simp only at h1
          unfold FtIndexer.indices at h1
          rw [ftSub_eq] at h1
          cases hsu : (bracketed true w).any isSurrogate with
          | true => rw [encode_err hsu] at h1; cases h1; rfl
          | false => rw [encode_eq hsu] at h1; cases h1

/-- The three methods agree, for any embeddings and any string: `embeds[w]` raises `KeyError` iff
`embedding(w)` is `None`, otherwise both give the same vector or raise the same exception. -/
theorem C27_agree (e : Embeddings K) (w : PyStr) :
    (e.getItem w = .error .keyError ↔ e.embedding w = .ok none) ∧
    (∀ v, e.getItem w = .ok v ↔ e.embedding w = .ok (some v)) ∧
    ∀ x, x ≠ .keyError → (e.getItem w = .error x ↔ e.embedding w = .error x) := by
  unfold Embeddings.getItem Embeddings.embedding
  rw [idx_getItem]
  cases hi : e.vocab.idx w with
  | error x =>
    have := idx_err hi
    subst this
    refine ⟨⟨fun h => (by cases h), fun h => (by cases h)⟩, fun v => ⟨fun h => (by cases h), fun h => (by cases h)⟩, fun y hy => ⟨fun h => (by cases h; rfl), fun h => (by cases h; rfl)⟩⟩
  | ok o =>
    cases o with
    | none =>
      refine ⟨⟨fun _ => rfl, fun _ => rfl⟩, fun v => ⟨fun h => (by cases h), fun h => (by cases h)⟩,
        fun y hy => ⟨fun h => ?_, fun h => (by cases h)⟩⟩
      cases h
      exact absurd rfl hy
    | some idx =>
      simp only [res_bind_ok]
      cases hr : e.embed idx with
      | error x =>
        have := embed_err hr
        subst this
        refine ⟨⟨fun h => (by cases h), fun h => (by cases h)⟩, fun v => ⟨fun h => (by cases h), fun h => (by cases h)⟩, fun y hy => ⟨fun h => (by cases h; rfl), fun h => (by cases h; rfl)⟩⟩
      | ok r =>
        refine ⟨⟨fun h => (by cases h), fun h => (by cases h)⟩, fun v => ⟨fun h => (by cases h; rfl),
          fun h => (by cases h; rfl)⟩, fun y hy => ⟨fun h => (by cases h), fun h => (by cases h)⟩⟩

/-- `embedding_with_norm` raises `TypeError` iff there are no norms; otherwise it agrees with
`embedding`, and always comes with a norm. -/
theorem C27_with_norm (e : Embeddings K) (w : PyStr) :
    (e.embeddingWithNorm w = .error .typeError ↔ e.norms = none) ∧
    (e.norms ≠ none →
      (e.embeddingWithNorm w = .ok none ↔ e.embedding w = .ok none) ∧
      (∀ v, e.embedding w = .ok (some v) ↔ ∃ n, e.embeddingWithNorm w = .ok (some (v, some n))) ∧
      (∀ v n, e.embeddingWithNorm w = .ok (some (v, n)) → n ≠ none) ∧
      ∀ x, e.embeddingWithNorm w = .error x ↔ e.embedding w = .error x) := by
  cases hn : e.norms with
  | none =>
    unfold Embeddings.embeddingWithNorm
    rw [hn]
    exact ⟨⟨fun _ => rfl, fun _ => rfl⟩, fun h => absurd rfl h⟩
  | some ns =>
    have hnorm : ∀ idx r, e.embed idx = .ok r → ∃ n, r.2 = some n := by
      intro idx r hr
      unfold Embeddings.embed at hr
      cases idx with
      | one i =>
        simp only at hr
        obtain ⟨a, _, hr⟩ := res_bind_inv hr
        rw [hn] at hr
        simp only at hr
        obtain ⟨b, _, hr⟩ := res_bind_inv hr
        cases hr
        exact ⟨b, rfl⟩
      | many is =>
        simp only at hr
        obtain ⟨a, _, hr⟩ := res_bind_inv hr
        cases hr
        exact ⟨_, rfl⟩
    unfold Embeddings.embeddingWithNorm Embeddings.embedding
    rw [hn]
    simp only
    cases hi : e.vocab.idx w with
    | error x =>
      have := idx_err hi
      subst this
      exact ⟨⟨fun h => (by cases h), fun h => (by cases h)⟩, fun _ => ⟨⟨fun h => (by cases h), fun h =>
        (by cases h)⟩, fun v => ⟨fun h => (by cases h), fun ⟨n, h⟩ => (by cases h)⟩, fun v n h =>
        (by cases h), fun x => ⟨fun h => (by cases h; rfl), fun h => (by cases h; rfl)⟩⟩⟩
    | ok o =>
      cases o with
      | none =>
        exact ⟨⟨fun h => (by cases h), fun h => (by cases h)⟩, fun _ => ⟨⟨fun h => rfl, fun h =>
          rfl⟩, fun v => ⟨fun h => (by cases h), fun ⟨n, h⟩ => (by cases h)⟩, fun v n h =>
          (by cases h), fun x => ⟨fun h => (by cases h), fun h => (by cases h)⟩⟩⟩
      | some idx =>
        simp only [res_bind_ok]
        cases hr : e.embed idx with
        | error x =>
          have := embed_err hr
          subst this
          exact ⟨⟨fun h => (by cases h), fun h => (by cases h)⟩, fun _ => ⟨⟨fun h => (by cases h),
            fun h => (by cases h)⟩, fun v => ⟨fun h => (by cases h), fun ⟨n, h⟩ => (by cases h)⟩,
            fun v n h => (by cases h), fun x => ⟨fun h => (by cases h; rfl), fun h =>
            (by cases h; rfl)⟩⟩⟩
        | ok r =>
          obtain ⟨n, hrn⟩ := hnorm idx r hr
          obtain ⟨v, n'⟩ := r
          cases hrn
          exact ⟨⟨fun h => (by cases h), fun h => (by cases h)⟩, fun _ => ⟨⟨fun h => (by cases h),
            fun h => (by cases h)⟩, fun v => ⟨fun h => (by cases h; exact ⟨n, rfl⟩),
            fun ⟨n, h⟩ => (by cases h; rfl)⟩, fun v n h => (by cases h; simp), fun x =>
            ⟨fun h => (by cases h), fun h => (by cases h)⟩⟩⟩

/-- `embedding(w)` does not raise.

Partial: "never" in the documentation is too strong.  Needed are quantized codes that select
centroids, an explicit index without negative values and, for fastText vocabularies, a string
without lone surrogates; see the refutations below. -/
theorem C27_total_partial (e : Embeddings K) (he : BuiltEmb e) (hlen : e.vocab.words.length < 2 ^ 63)
    (hc : CodesOk e.storage) (hneg : ∀ ix, e.vocab.sub = some ix → NonNegIndex ix) (w : PyStr)
    (hw : (∃ f, e.vocab.sub = some (.ft f)) → w.any isSurrogate = false) :
    ∃ r, e.embedding w = .ok r := by
  have hnew := embNew_iff.mp he.new
  cases hi : e.vocab.idx w with
  | error x =>
    exfalso
    unfold Vocab.idx at hi
    cases hs : e.vocab.sub with
    | none =>
      rw [hs] at hi
      simp only at hi
      cases hg : Dict.get? e.vocab.index w <;> rw [hg] at hi <;> cases hi
    | some ix =>
      rw [hs] at hi
      simp only at hi
      cases hg : Dict.get? e.vocab.index w with
      | some i => rw [hg] at hi; cases hi
      | none =>
        rw [hg] at hi
        simp only at hi
        have : ∃ is, e.vocab.subwordIndices ix w = .ok is := by
          unfold Vocab.subwordIndices
          by_cases hx : ∃ x, ix = .expl x
          · obtain ⟨x, rfl⟩ := hx
            exact ⟨_, rfl⟩
          · exact ⟨_, (hash_indices (he.vocab.1 ix hs) (fun x h => hx ⟨x, h⟩) w hlen (by
              rintro ⟨f, rfl⟩; exact hw ⟨f, hs⟩)).1⟩
        obtain ⟨is, his⟩ := this
        rw [his] at hi
        simp only [res_bind_ok] at hi
        split at hi <;> cases hi
  | ok o =>
    unfold Embeddings.embedding
    rw [hi]
    cases o with
    | none => exact ⟨none, rfl⟩
    | some idx =>
      have hr := (C15_bounds_partial e.vocab he.vocab hlen hneg w).2.1 idx hi
      have : ∃ r, e.embed idx = .ok r := by
        unfold Embeddings.embed
        cases idx with
        | one i =>
          obtain ⟨h1, h2⟩ := hr
          obtain ⟨v, hv⟩ := getOne_total he.storage hc (i := i) (by omega)
          simp only
          rw [hv]
          cases hn : e.norms with
          | none => exact ⟨_, rfl⟩
          | some ns =>
            have h3 := (hnew.2.2 ns hn).2
            rw [he.vocab.len] at h3
            obtain ⟨n, hn'⟩ := npGet_total (xs := ns) (i := (i : Int)) (by omega)
            simp only [res_bind_ok]
            rw [hn']
            exact ⟨_, rfl⟩
        | many is =>
          simp only
          rw [getMany_eq]
          cases hm : mapRes e.storage.getOne is with
          | ok rows => exact ⟨_, rfl⟩
          | error x =>
            obtain ⟨i, hi', hx⟩ := mapRes_err hm
            obtain ⟨h1, h2⟩ := hr i hi'
            obtain ⟨v, hv⟩ := getOne_total he.storage hc (i := i) (by omega)
            rw [hv] at hx; cases hx
      obtain ⟨r, hr⟩ := this
      simp only [res_bind_ok]
      rw [hr]
      exact ⟨_, rfl⟩

/-- Exceptions that do occur. -/
theorem C27_errors (e : Embeddings K) (w : PyStr) (x : PyErr) (h : e.embedding w = .error x) :
    x = .unicodeEncodeError ∨ x = .indexError := by
  unfold Embeddings.embedding at h
  cases hi : e.vocab.idx w with
  | error y => rw [hi] at h; cases h; exact .inl (idx_err hi)
  | ok o =>
    rw [hi] at h
    cases o with
    | none => cases h
    | some idx =>
      simp only [res_bind_ok] at h
      cases hr : e.embed idx with
      | error y => rw [hr] at h; cases h; exact .inr (embed_err hr)
      | ok r => rw [hr] at h; cases h

/-- Row `i`, counted from the end if negative, does not exist or has a code without centroid. -/
def RowLacks (s : Storage K) (i : Int) : Prop :=
  match s with
  | .nd m => ¬(-(m.rows.length : Int) ≤ i ∧ i < m.rows.length)
  | .quant q => ¬(-(q.codes.length : Int) ≤ i ∧ i < q.codes.length) ∨
      ∃ (j : Nat) (c : List UInt8), (i = j ∨ i = j - (q.codes.length : Int)) ∧ q.codes[j]? = some c ∧
        ∃ x ∈ c, q.pq.nCentroids ≤ x.toNat

/-- The rows behind an index. -/
def Idx.rows : Idx → List Int
  | .one i => [(i : Int)]
  | .many is => is

theorem reconstruct_bad {q : QArr K} (hq : QWF q) {c : List UInt8} (hc : c ∈ q.codes) {x : UInt8} (hx : x ∈ c)
    (h : q.pq.nCentroids ≤ x.toNat) (w : List K) : q.pq.reconstruct c ≠ .ok w := by
  intro hr
  unfold PQ.reconstruct at hr
  have hl : c.length = q.pq.quantizers.length := by rw [hq.codes c hc, hq.qlen]
  rw [if_neg (by rw [hl]; simp)] at hr
  obtain ⟨parts, hm, _⟩ := res_bind_inv (show (mapRes (fun qc : List (List K) × UInt8 =>
    npGet qc.1 (qc.2.toNat : Int)) (q.pq.quantizers.zip c) >>= _) = _ from hr)
  obtain ⟨j, hj, rfl⟩ := List.getElem_of_mem hx
  have hmem : (q.pq.quantizers[j], c[j]) ∈ q.pq.quantizers.zip c := by
    rw [List.mem_iff_getElem]
    exact ⟨j, by rw [List.length_zip]; omega, by rw [List.getElem_zip]⟩
  have h2 := mapRes_ok.mp hm
  obtain ⟨y, hy⟩ : ∃ y, npGet q.pq.quantizers[j] (c[j].toNat : Int) = .ok y := by
    obtain ⟨k, hk, he⟩ := List.getElem_of_mem hmem
    have hk' : k < parts.length := by rw [← h2.length_eq]; exact hk
    refine ⟨parts[k], ?_⟩
    have := List.forall₂_iff_get.mp h2 |>.2 k hk hk'
    simp only [List.get_eq_getElem] at this
    rw [he] at this
    exact this
  have h3 := npGet_nat.mp hy
  have h4 := hq.cents _ (List.getElem_mem (l := q.pq.quantizers) (by omega : j < q.pq.quantizers.length))
  obtain ⟨h5, _⟩ := List.getElem?_eq_some_iff.mp h3
  omega

theorem getOne_lacks {s : Storage K} (hs : StorageWF s) {i : Int} :
    s.getOne i = .error .indexError ↔ RowLacks s i := by
  have hdec : s.getOne i = .error .indexError ↔ ¬ ∃ v, s.getOne i = .ok v := by
    cases h : s.getOne i with
    | error x => rw [getOne_err h]; simp
    | ok v => simp
  rw [hdec]
  cases s with
  | nd m =>
    unfold RowLacks Storage.getOne
    simp only
    refine not_congr ⟨?_, npGet_total⟩
    rintro ⟨v, hv⟩
    exact getOne_range (s := .nd m) hv
  | quant q =>
    unfold RowLacks
    simp only
    constructor
    · intro hn
      by_cases hr : -(q.codes.length : Int) ≤ i ∧ i < q.codes.length
      · refine Or.inr ?_
        obtain ⟨c, h1⟩ := npGet_total (xs := q.codes) hr
        obtain ⟨j, hj, hc⟩ := npGet_ok.mp h1
        have hcm := List.mem_of_getElem? hc
        refine ⟨j, c, (npIndex_ok.mp hj).2, hc, ?_⟩
        by_contra hb
        have hb : ∀ x ∈ c, x.toNat < q.pq.nCentroids := fun x hx => by
          by_contra h
          exact hb ⟨x, hx, by omega⟩
        obtain ⟨w, h2⟩ := reconstruct_total hs hcm hb
        cases hno : q.norms with
        | none => exact hn ⟨w, qGetOne_iff.mpr ⟨c, w, h1, h2, by rw [hno]⟩⟩
        | some ns =>
          obtain ⟨n, h3⟩ := npGet_total (xs := ns) (i := i) (by rw [QWF.norms hs ns hno]; exact hr)
          exact hn ⟨scale n w, qGetOne_iff.mpr ⟨c, w, h1, h2, by rw [hno]; exact ⟨n, h3, rfl⟩⟩⟩
      · exact Or.inl hr
    · rintro (h | ⟨j, c, hij, hc, x, hx, hb⟩) ⟨v, hv⟩
      · exact h (getOne_range (s := .quant q) hv)
      · obtain ⟨c', w, h1, h2, _⟩ := qGetOne_iff.mp hv
        obtain ⟨j', hj', hc'⟩ := npGet_ok.mp h1
        obtain ⟨h3, h4⟩ := npIndex_ok.mp hj'
        obtain ⟨h5, _⟩ := List.getElem?_eq_some_iff.mp hc
        have : j' = j := by omega
        subst this
        rw [hc] at hc'
        cases hc'
        exact reconstruct_bad hs (List.mem_of_getElem? hc) hx hb w h2

theorem mapRes_error_iff {α β : Type} {f : α → Res β} {xs : List α} (hf : ∀ x e, f x = .error e → e = .indexError) :
    mapRes f xs = .error .indexError ↔ ∃ x ∈ xs, f x = .error .indexError := by
  constructor
  · exact mapRes_err
  · rintro ⟨x, hx, he⟩
    cases hm : mapRes f xs with
    | error e =>
      obtain ⟨y, _, hy⟩ := mapRes_err hm
      rw [hf y e hy]
    | ok ys =>
      obtain ⟨k, hk, rfl⟩ := List.getElem_of_mem hx
      have h2 := mapRes_ok.mp hm
      have := (List.forall₂_iff_get.mp h2).2 k hk (by rw [← h2.length_eq]; exact hk)
      simp only [List.get_eq_getElem] at this
      rw [he] at this
      cases this

/-- When exactly `embedding(w)` raises, and what: `UnicodeEncodeError` for an unknown word with a lone
surrogate and a fastText vocabulary, `IndexError` if one of the rows that the vocabulary names cannot be
produced. -/
theorem C27_raises (e : Embeddings K) (he : BuiltEmb e) (w : PyStr) :
    (e.embedding w = .error .unicodeEncodeError ↔
      (∃ f, e.vocab.sub = some (.ft f)) ∧ w ∉ e.vocab.words ∧ w.any isSurrogate = true) ∧
    (e.embedding w = .error .indexError ↔
      ∃ idx, e.vocab.idx w = .ok (some idx) ∧ ∃ i ∈ idx.rows, RowLacks e.storage i) := by
  have hnew := embNew_iff.mp he.new
  have hembed : ∀ idx, e.vocab.idx w = .ok (some idx) →
      (e.embed idx = .error .indexError ↔ ∃ i ∈ idx.rows, RowLacks e.storage i) := by
    intro idx hidx
    unfold Embeddings.embed
    cases idx with
    | one i =>
      simp only [Idx.rows, List.mem_singleton, exists_eq_left]
      rw [← getOne_lacks he.storage]
      cases h1 : e.storage.getOne (i : Int) with
      | error x => rw [getOne_err h1]; simp [Bind.bind, Except.bind]
      | ok v =>
        simp only [res_bind_ok, reduceCtorEq, iff_false]
        intro h
        cases hn : e.norms with
        | none => rw [hn] at h; cases h
        | some ns =>
          rw [hn] at h
          have h3 := (hnew.2.2 ns hn).2
          rw [he.vocab.len] at h3
          have hi : i < e.vocab.words.length := by
            have hg : Dict.get? e.vocab.index w = some i := by
              unfold Vocab.idx at hidx
              cases hs : e.vocab.sub with
              | none =>
                rw [hs] at hidx
                simp only at hidx
                cases hg : Dict.get? e.vocab.index w with
                | none => rw [hg] at hidx; cases hidx
                | some j => rw [hg] at hidx; cases hidx; rfl
              | some ix =>
                rw [hs] at hidx
                simp only at hidx
                cases hg : Dict.get? e.vocab.index w with
                | some j => rw [hg] at hidx; cases hidx; rfl
                | none =>
                  rw [hg] at hidx
                  simp only at hidx
                  obtain ⟨is, _, hidx⟩ := res_bind_inv hidx
                  split at hidx <;> cases hidx
            exact (List.getElem?_eq_some_iff.mp (he.vocab.get.mp hg)).1
          obtain ⟨n, hn'⟩ := npGet_total (xs := ns) (i := (i : Int)) (by omega)
          simp only at h
          rw [hn'] at h
          cases h
    | many is =>
      simp only [Idx.rows]
      rw [getMany_eq]
      have hm := mapRes_error_iff (f := e.storage.getOne) (xs := is) (fun x y h => getOne_err h)
      simp only [getOne_lacks he.storage] at hm
      rw [← hm]
      cases h1 : mapRes e.storage.getOne is with
      | error x => simp [Bind.bind, Except.bind]
      | ok v => simp only [res_bind_ok, reduceCtorEq, iff_false]; intro h; cases h
  constructor
  · have h1 : e.embedding w = .error .unicodeEncodeError ↔ e.vocab.idx w = .error .unicodeEncodeError := by
      unfold Embeddings.embedding
      cases hi : e.vocab.idx w with
      | error x => simp [Bind.bind, Except.bind]
      | ok o =>
        cases o with
        | none => simp [Bind.bind, Except.bind]
        | some idx =>
          simp only [res_bind_ok, reduceCtorEq, iff_false]
          intro h
          cases hr : e.embed idx with
          | error y => rw [hr, embed_err hr] at h; cases h
          | ok r => rw [hr] at h; cases h
    rw [h1]
    have hmem : w ∉ e.vocab.words ↔ Dict.get? e.vocab.index w = none := by
      constructor
      · intro h
        cases hg : Dict.get? e.vocab.index w with
        | none => rfl
        | some i => exact absurd (List.mem_of_getElem? (he.vocab.get.mp hg)) h
      · intro h hw
        obtain ⟨i, hi⟩ := List.getElem?_of_mem hw
        rw [he.vocab.get.mpr hi] at h
        cases h
    rw [hmem]
    unfold Vocab.idx
    cases hs : e.vocab.sub with
    | none =>
      simp only
      cases hg : Dict.get? e.vocab.index w <;> simp
    | some ix =>
      simp only
      cases hg : Dict.get? e.vocab.index w with
      | some i => simp
      | none =>
        simp only
        unfold Vocab.subwordIndices Indexer.indices
        cases ix with
        | fifu ix => simp only [res_bind_ok]; constructor
                     · intro h; split at h <;> cases h
                     · rintro ⟨⟨f, h⟩, _⟩; cases h
        | expl ix => simp only [res_bind_ok]; constructor
                     · intro h; split at h <;> cases h
                     · rintro ⟨⟨f, h⟩, _⟩; cases h
        | ft ix =>
          simp only
          unfold FtIndexer.indices
          have hb : (bracketed true w).any isSurrogate = w.any isSurrogate := by
            have h1 : isSurrogate langle = false := by decide
            have h2 : isSurrogate rangle = false := by decide
            simp [bracketed, h1, h2]
          cases hsu : w.any isSurrogate with
          | true =>
            rw [ftSub_eq, encode_err (hb.trans hsu)]
            simp [Bind.bind, Except.bind]
          | false =>
            rw [ftSub_eq, encode_eq (hb.trans hsu)]
            simp only [Bool.false_eq_true, and_false, iff_false]
            intro h
            simp only [res_bind_ok, res_pure] at h
            split at h <;> cases h
  · unfold Embeddings.embedding
    cases hi : e.vocab.idx w with
    | error x =>
      rw [idx_err hi]
      simp [Bind.bind, Except.bind]
    | ok o =>
      cases o with
      | none => simp [Bind.bind, Except.bind]
      | some idx =>
        simp only [res_bind_ok, Except.ok.injEq, Option.some.injEq, exists_eq_left']
        rw [← hembed idx hi]
        cases hr : e.embed idx with
        | error y => simp [Bind.bind, Except.bind]
        | ok r => simp only [res_bind_ok, reduceCtorEq, iff_false]; intro h; cases h

end

/-- A lone surrogate raises with a fastText vocabulary. -/
theorem C27_surrogate_refuted : ∃ e : Embeddings Rat, BuiltEmb e ∧ CodesOk e.storage ∧
    e.embedding [0xD800] = .error .unicodeEncodeError :=
  ⟨Sample.embRat, Sample.builtEmbRat, trivial, Sample.of_errOf (by decide +kernel)⟩

/-- A code without centroid raises. -/
theorem C27_codes_refuted : ∃ e : Embeddings Rat, BuiltEmb e ∧ e.vocab.sub = none ∧
    [97] ∈ e.vocab.words ∧ e.embedding [97] = .error .indexError :=
  ⟨⟨.quant ⟨⟨2, 1, [[[1], [2]]], none⟩, 1, [[2]], none⟩, ⟨[[97]], [([97], 0)], none⟩, none, none⟩,
    ⟨⟨(by intro ix h; cases h), by decide⟩,
      ⟨by decide, rfl, by decide, by decide, by simp, by simp, by decide, by decide, by decide⟩,
      embNew_iff.mpr ⟨rfl, by decide, by simp⟩⟩, rfl, by decide, Sample.of_errOf (by decide +kernel)⟩

/-- An accepted explicit index with negative values raises. -/
theorem C27_negative_refuted : ∃ e : Embeddings Rat, BuiltEmb e ∧ CodesOk e.storage ∧
    e.embedding [97] = .error .indexError := by
  refine ⟨⟨.nd ⟨1, [[1], [2], [3]]⟩, ⟨[[98]], [([98], 0)], some (.expl ⟨[[60, 97], [97, 62]], 2, 3,
    [([60, 97], -100), ([97, 62], 1)], 2⟩)⟩, none, none⟩, ⟨⟨?_, by decide⟩, ?_,
      embNew_iff.mpr ⟨rfl, by decide, by simp⟩⟩, trivial, Sample.of_errOf (by decide +kernel)⟩
  · intro ix h
    cases h
    exact .explIdx (gs := [[60, 97], [97, 62]]) (mn := 2) (mx := 3)
      (d := [([60, 97], -100), ([97, 62], 1)]) (by decide) (by decide)
  · unfold StorageWF Mat.WF ShapeOk; decide

/-! ### The hypotheses can be met -/

example : BuiltEmb Sample.embRat ∧ CodesOk Sample.embRat.storage ∧
    (∀ ix, Sample.embRat.vocab.sub = some ix → NonNegIndex ix) ∧
    Sample.embRat.embedding [97, 98] = .ok (some [3, 4]) ∧
    Sample.embRat.embedding [99] = .ok (some [7 / 414, 407 / 414]) := by
  refine ⟨Sample.builtEmbRat, trivial, ?_, by decide +kernel, by decide +kernel⟩
  intro ix h x hx
  cases h
  cases hx

/-- A missing row for the only n-gram of an unknown word. -/
example : ∃ e : Embeddings Rat, BuiltEmb e ∧ (∃ idx, e.vocab.idx [97] = .ok (some idx) ∧
    ∃ i ∈ idx.rows, RowLacks e.storage i) := by
  obtain ⟨e, he, _, h⟩ := C27_negative_refuted
  exact ⟨e, he, (C27_raises e he [97]).2.mp h⟩

end FF
