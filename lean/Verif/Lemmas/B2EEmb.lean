import Verif.Lemmas.StorageRows
import Verif.Props.C18
import Verif.Props.C19
import Verif.Props.C20
import Verif.Props.C24
import Verif.Lemmas.EmbIO
/-! Rows of `bucket_to_explicit`. -/

namespace FF

/-- The indices of a word under a hash indexer are the shifted buckets of its n-grams. -/
theorem hash_indices {ix : Indexer} (hix : BuiltIndexer ix) (hh : ∀ e, ix ≠ .expl e) (w : PyStr)
    {off : Nat} (ho : off < 2 ^ 63) (hw : (∃ f, ix = .ft f) → w.any isSurrogate = false) :
    ix.indices w off true = .ok ((wordNgrams ix w).map fun g => (off : Int) + bucketOf ix g) ∧
      ∀ g ∈ wordNgrams ix w, CallOk ix g := by
  have hwf := builtIndexer_wf hix
  have hr := hix.range
  have hng := ngrams_occs hr.1 hr.2 w true
  cases ix with
  | expl ix => exact absurd rfl (hh ix)
  | fifu ix =>
    obtain ⟨_, _, _, h0, _, _, _, h2⟩ := fifuNew_ok.mp hwf
    have hub : ix.upperBound ≤ 2 ^ 63 := Nat.pow_le_pow_right (by omega) (by omega)
    obtain ⟨gs, h3, _, h4⟩ := C18_bulk _ _ _ ix hwf w off (by omega) true
    rw [show ix.minN = (Indexer.fifu ix).minN from rfl,
      show ix.maxN = (Indexer.fifu ix).maxN from rfl, hng] at h3
    have hgs : wordNgrams (.fifu ix) w = gs := Except.ok.inj h3
    refine ⟨?_, fun g _ => callOk_of rfl⟩
    rw [hgs]
    unfold Indexer.indices
    simp only
    rw [h4]
    simp only [List.map_map]
    refine congrArg Except.ok (List.map_congr_left fun g _ => ?_)
    show (((off + ix.call g : Nat)) : Int) = off + bucketOf (.fifu ix) g
    push_cast
    rfl
  | ft ix =>
    obtain ⟨_, _, _, h0, _, _, h2, h3⟩ := ftNew_ok.mp hwf
    have hs := hw ⟨ix, rfl⟩
    have hub : ix.upperBound ≤ 2 ^ 63 := by unfold FtIndexer.upperBound; omega
    have henc := encode_eq hs
    obtain ⟨gs, is, h5, h6, h8, h7⟩ := C19_bulk _ _ _ ix hwf w off (by omega) true _ henc
    rw [show ix.minN = (Indexer.ft ix).minN from rfl,
      show ix.maxN = (Indexer.ft ix).maxN from rfl, hng] at h5
    have hgs : wordNgrams (Indexer.ft ix) w = gs := Except.ok.inj h5
    rw [hgs]
    unfold Indexer.indices
    simp only
    rw [h7]
    clear h5 h7 hgs hng h8
    induction gs generalizing is with
    | nil => cases is <;> first | exact ⟨rfl, by simp⟩ | cases h6
    | cons g gs ih =>
      cases is with
      | nil => cases h6
      | cons i is =>
        simp only [List.map_cons, List.cons.injEq] at h6
        obtain ⟨ih1, ih2⟩ := ih is h6.2
        have hc : (Indexer.ft ix).call g = .ok (some (i : Int)) := by
          unfold Indexer.call; simp only; rw [h6.1]; rfl
        have hb : bucketOf (Indexer.ft ix) g = i := by unfold bucketOf; rw [hc]
        refine ⟨?_, fun x hx => ?_⟩
        · have h8 := Except.ok.inj ih1
          simp only [List.map_cons, res_bind_ok, hb]
          refine congrArg Except.ok ?_
          rw [List.cons.injEq]
          exact ⟨by simp, h8⟩
        · rcases List.mem_cons.mp hx with rfl | hx
          · exact callOk_of hc
          · exact ih2 x hx

/-- Under an explicit indexer they are those of the n-grams with an index. -/
theorem expl_indices {ix : ExplIndexer} (hix : BuiltIndexer (.expl ix)) (w : PyStr) (off : Nat) :
    (Indexer.expl ix).indices w off true = .ok ((wordNgrams (.expl ix) w).filterMap fun g =>
      (ix.call g).map fun i => (off : Int) + i) := by
  have hr := hix.range
  obtain ⟨gs, h1, _, h2⟩ := C20_bulk ix hix w off true
  have hng := ngrams_occs hr.1 hr.2 w true
  rw [show (Indexer.expl ix).minN = ix.minN from rfl,
    show (Indexer.expl ix).maxN = ix.maxN from rfl, h1] at hng
  have hgs : gs = wordNgrams (.expl ix) w := Except.ok.inj hng
  unfold Indexer.indices
  simp only
  rw [h2, hgs]

theorem wordNgrams_congr {a b : Indexer} (h1 : a.minN = b.minN) (h2 : a.maxN = b.maxN) (w : PyStr) :
    wordNgrams a w = wordNgrams b w := by unfold wordNgrams; rw [h1, h2]

/-- If an n-gram exists, the n-grams cover the word. -/
theorem wordNgrams_cover {ix : Indexer} (hix : BuiltIndexer ix) {w : PyStr}
    (hne : wordNgrams ix w ≠ []) {c : Code} (hc : c ∈ w) : ∃ g ∈ wordNgrams ix w, c ∈ g := by
  have hr := hix.range
  obtain ⟨g0, hg0⟩ := List.exists_mem_of_ne_nil _ hne
  unfold wordNgrams at hg0
  obtain ⟨⟨s, l⟩, hm, _⟩ := List.mem_map.mp hg0
  rw [mem_occs hr.1] at hm
  have hcb : c ∈ bracketed true w := by unfold bracketed; simp [hc]
  obtain ⟨p, hp, hpc⟩ := List.getElem_of_mem hcb
  generalize hb : bracketed true w = b at *
  have hsl : min p (b.length - ix.minN) + ix.minN ≤ b.length := by omega
  refine ⟨(b.drop (min p (b.length - ix.minN))).take ix.minN, ?_, ?_⟩
  · unfold wordNgrams
    rw [hb]
    refine List.mem_map.mpr ⟨(min p (b.length - ix.minN), ix.minN), ?_, rfl⟩
    rw [mem_occs hr.1]
    omega
  · have hlt : p - min p (b.length - ix.minN) <
        ((b.drop (min p (b.length - ix.minN))).take ix.minN).length := by
      rw [List.length_take, List.length_drop]; omega
    have := List.getElem_mem hlt
    rw [List.getElem_take, List.getElem_drop] at this
    have he : min p (b.length - ix.minN) + (p - min p (b.length - ix.minN)) = p := by omega
    simp only [he, hpc] at this
    exact this

section
variable {K : Type} [NumOps K]

theorem npSet_ok {α : Type} {xs ys : List α} {i : Nat} {x : α} :
    npSet xs (i : Int) x = .ok ys ↔ i < xs.length ∧ ys = xs.set i x := by
  unfold npSet
  constructor
  · intro h
    obtain ⟨j, h1, h⟩ := res_bind_inv h
    cases h
    obtain ⟨h2, h3⟩ := npIndex_ok.mp h1
    have : i = j := by omega
    subst this
    exact ⟨h2, rfl⟩
  · rintro ⟨h1, rfl⟩
    rw [npIndex_nat h1]; rfl

/-- Loop invariant of `bucket_to_explicit`: `P` are the n-grams handled so far. -/
structure RowsInv (e : Embeddings K) (ix : Indexer) (eix : ExplIndexer) (n : Nat)
    (known rows : List (List K)) (total : Nat) (P : List PyStr) : Prop where
  length : rows.length = total
  known : ∀ i : Nat, i < n → rows[i]? = known[i]?
  done : ∀ g ∈ P, ∀ k : Nat, eix.call g = some (k : Int) →
    ∃ v, rows[n + k]? = some v ∧ e.storage.getOne (n + bucketOf ix g) = .ok v
  cols : ∀ r ∈ rows, r.length = e.storage.nCols

theorem b2eRow_inv {e : Embeddings K} (hs : StorageWF e.storage) {v v' : Vocab} {ix : Indexer}
    {eix : ExplIndexer} {bs : List Int}
    (r : B2EResult v ix v' eix bs) {n total : Nat} (ht : total = n + bs.length)
    {known rows : List (List K)} {P : List PyStr} (hP : ∀ g ∈ P, g ∈ allNgrams ix v.words)
    (h : RowsInv e ix eix n known rows total P) {g : PyStr} (hg : g ∈ allNgrams ix v.words)
    {row : List K} (hrow : e.storage.getOne (n + bucketOf ix g) = .ok row) :
    ∃ rows', b2eRow e ix eix n rows g = .ok rows' ∧
      RowsInv e ix eix n known rows' total (P ++ [g]) := by
  obtain ⟨k, hk, hc⟩ := r.call g hg
  have hkl := (List.getElem?_eq_some_iff.mp hk).1
  have hset : npSet rows ((n : Int) + (k : Int)) row = .ok (rows.set (n + k) row) := by
    rw [show (n : Int) + (k : Int) = ((n + k : Nat) : Int) by push_cast; rfl, npSet_ok]
    exact ⟨by rw [h.length]; omega, rfl⟩
  refine ⟨rows.set (n + k) row, ?_, ?_, ?_, ?_, ?_⟩
  · unfold b2eRow
    rw [show Dict.get? eix.index g = some (k : Int) from hc]
    simp only
    rw [r.callOk g hg]
    simp only [res_bind_ok]
    rw [hrow]
    exact hset
  · rw [List.length_set, h.length]
  · intro i hi
    rw [List.getElem?_set_ne (by omega)]
    exact h.known i hi
  · intro x hx k' hk'
    have hxA : x ∈ allNgrams ix v.words := by
      rcases List.mem_append.mp hx with hx | hx
      · exact hP x hx
      · rw [List.mem_singleton] at hx; rw [hx]; exact hg
    by_cases hkk : k' = k
    · subst hkk
      obtain ⟨m, hm, hcm⟩ := r.call x hxA
      rw [hcm] at hk'
      have hmk : m = k' := by simpa using hk'
      rw [hmk, hk] at hm
      refine ⟨row, List.getElem?_set_self (by rw [h.length]; omega), ?_⟩
      rw [← Option.some.inj hm]; exact hrow
    · have hxP : x ∈ P := by
        rcases List.mem_append.mp hx with hx | hx
        · exact hx
        · rw [List.mem_singleton] at hx
          rw [hx, hc] at hk'
          exact absurd (by simpa using hk'.symm) hkk
      rw [List.getElem?_set_ne (by omega)]
      exact h.done x hxP k' hk'
  · intro x hx
    rcases List.mem_or_eq_of_mem_set hx with hx | rfl
    · exact h.cols x hx
    · exact getOne_length hs hrow

theorem b2eRow_ok {e : Embeddings K} {v v' : Vocab} {ix : Indexer}
    {eix : ExplIndexer} {bs : List Int} (r : B2EResult v ix v' eix bs) {n : Nat}
    {rows rows' : List (List K)} {g : PyStr} (hg : g ∈ allNgrams ix v.words)
    (h : b2eRow e ix eix n rows g = .ok rows') :
    ∃ row, e.storage.getOne (n + bucketOf ix g) = .ok row := by
  obtain ⟨k, hk, hc⟩ := r.call g hg
  unfold b2eRow at h
  rw [show Dict.get? eix.index g = some (k : Int) from hc] at h
  simp only at h
  rw [r.callOk g hg] at h
  simp only [res_bind_ok] at h
  obtain ⟨row, h1, _⟩ := res_bind_inv h
  exact ⟨row, h1⟩

theorem b2eRows_inv {e : Embeddings K} (hs : StorageWF e.storage) {v v' : Vocab} {ix : Indexer}
    {eix : ExplIndexer} {bs : List Int}
    (r : B2EResult v ix v' eix bs) {n total : Nat} (ht : total = n + bs.length)
    {known : List (List K)} (gs : List PyStr) (hgs : ∀ g ∈ gs, g ∈ allNgrams ix v.words)
    {rows rows' : List (List K)} {P : List PyStr} (hP : ∀ g ∈ P, g ∈ allNgrams ix v.words)
    (h : RowsInv e ix eix n known rows total P)
    (hf : foldRes (b2eRow e ix eix n) rows gs = .ok rows') :
    RowsInv e ix eix n known rows' total (P ++ gs) := by
  induction gs generalizing rows P with
  | nil => cases hf; simpa using h
  | cons g gs ih =>
    unfold foldRes at hf
    obtain ⟨rows1, h1, hf⟩ := res_bind_inv hf
    have hg := hgs g (by simp)
    obtain ⟨row, hrow⟩ := b2eRow_ok r hg h1
    obtain ⟨rows2, h2, hinv⟩ := b2eRow_inv hs r ht hP h hg hrow
    rw [h1] at h2
    cases h2
    have := ih (fun x hx => hgs x (List.mem_cons_of_mem _ hx)) (P := P ++ [g]) ?_ hinv hf
    · simpa using this
    · intro x hx
      rcases List.mem_append.mp hx with hx | hx
      · exact hP x hx
      · rw [List.mem_singleton] at hx; rw [hx]; exact hg

theorem b2eRows_total {e : Embeddings K} (hs : StorageWF e.storage) {v v' : Vocab} {ix : Indexer}
    {eix : ExplIndexer} {bs : List Int}
    (r : B2EResult v ix v' eix bs) {n total : Nat} (ht : total = n + bs.length)
    {known : List (List K)} (gs : List PyStr) (hgs : ∀ g ∈ gs, g ∈ allNgrams ix v.words)
    (hrow : ∀ g ∈ allNgrams ix v.words, ∃ row, e.storage.getOne (n + bucketOf ix g) = .ok row)
    {rows : List (List K)} {P : List PyStr} (hP : ∀ g ∈ P, g ∈ allNgrams ix v.words)
    (h : RowsInv e ix eix n known rows total P) :
    ∃ rows', foldRes (b2eRow e ix eix n) rows gs = .ok rows' := by
  induction gs generalizing rows P with
  | nil => exact ⟨rows, rfl⟩
  | cons g gs ih =>
    have hg := hgs g (by simp)
    obtain ⟨row, hr⟩ := hrow g hg
    obtain ⟨rows2, h2, hinv⟩ := b2eRow_inv hs r ht hP h hg hr
    unfold foldRes
    rw [h2]
    refine ih (fun x hx => hgs x (List.mem_cons_of_mem _ hx)) (P := P ++ [g]) ?_ hinv
    intro x hx
    rcases List.mem_append.mp hx with hx | hx
    · exact hP x hx
    · rw [List.mem_singleton] at hx; rw [hx]; exact hg

omit [NumOps K] in
theorem embNew_iff {s : Storage K} {v : Vocab} {norms : Option (List K)} {md : Option Meta}
    {e : Embeddings K} : Embeddings.new s v norms md = .ok e ↔
      e = ⟨s, v, norms, md⟩ ∧ (s.nRows : Int) = v.upperBound ∧
        ∀ n, norms = some n → n.length ≤ s.nRows ∧ v.len = n.length := by
  unfold Embeddings.new checkRequirements normsCompat
  by_cases h1 : (s.nRows : Int) = v.upperBound
  · rw [pyAssert_true (by simpa using h1)]
    cases norms with
    | none =>
      simp only [res_bind_ok]
      constructor
      · intro h; cases h; exact ⟨rfl, h1, by simp⟩
      · rintro ⟨rfl, _⟩; rfl
    | some n =>
      by_cases h2 : s.nRows ≥ n.length
      · by_cases h3 : v.len = n.length
        · simp only [res_bind_ok]
          rw [pyAssert_true (by simpa using h2), pyAssert_true (by simpa using h3)]
          constructor
          · intro h; cases h
            refine ⟨rfl, h1, ?_⟩
            intro m hm; cases hm; exact ⟨h2, h3⟩
          · rintro ⟨rfl, _⟩; rfl
        · simp only [res_bind_ok]
          rw [pyAssert_true (by simpa using h2), pyAssert_false (by simpa using h3)]
          constructor
          · intro h; cases h
          · rintro ⟨_, _, h⟩; exact absurd (h n rfl).2 h3
      · simp only [res_bind_ok]
        rw [pyAssert_false (by simpa using h2)]
        constructor
        · intro h; cases h
        · rintro ⟨_, _, h⟩; exact absurd (h n rfl).1 h2
  · rw [pyAssert_false (by simpa using h1)]
    constructor
    · intro h; cases h
    · rintro ⟨_, h, _⟩; exact absurd h h1

end

theorem upperBound_ge {v : Vocab} (h : BuiltVocab v) : (v.words.length : Int) ≤ v.upperBound := by
  unfold Vocab.upperBound
  rw [h.len]
  cases hs : v.sub with
  | none => simp
  | some ix =>
    have : 0 ≤ ix.upperBound := by
      cases ix with
      | fifu ix => exact Int.natCast_nonneg _
      | ft ix => exact Int.natCast_nonneg _
      | expl ix =>
        have := (ExplValid.bound (builtIndexer_wf (h.1 _ hs)))
        show 0 ≤ ix.bound
        omega
    simp only
    omega

end FF
