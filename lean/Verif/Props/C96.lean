import Verif.Lemmas.Among
import Verif.Props.C31
import Verif.Props.C32
import Verif.Props.C93
/-! C96: the answers to different queries agree with one another. -/

namespace FF

section
variable {K : Type} [NumOps K] [Score K]

/-- The answers that are left after removing some words are nearest neighbours without these words. -/
theorem topK_without {e : Embeddings K} (he : BuiltEmb e) {q : List K} {sk sk' : List PyStr} {n k : Nat}
    {res : List (PyStr × K)} (t : IsTopK e q sk n res) (hs : ∀ w ∈ sk, w ∈ sk')
    (hk : k ≤ (res.filter fun r => decide (r.1 ∉ sk')).length) :
    IsTopK e q sk' k ((res.filter fun r => decide (r.1 ∉ sk')).take k) := by
  set fil := res.filter fun r => decide (r.1 ∉ sk') with hfil
  have hsort : fil.Pairwise fun a b => Score.lt a.2 b.2 = false := t.sorted.filter _
  refine ⟨by rw [List.length_take]; omega,
    ((List.take_sublist _ _).map _).nodup (((List.filter_sublist (l := res)).map _).nodup t.nodup),
    hsort.sublist (List.take_sublist _ _), fun w x hw => ?_, fun i w row hi hg hsk hnot r hr => ?_⟩
  · have hw := List.mem_filter.mp (List.mem_of_mem_take hw)
    exact ⟨by simpa using hw.2, (t.scores w x hw.1).2⟩
  · have hrf := List.mem_of_mem_take hr
    by_cases hm : w ∈ res.map Prod.fst
    · obtain ⟨s, hs', rfl⟩ := List.mem_map.mp hm
      have hsf : s ∈ fil := List.mem_filter.mpr ⟨hs', by simpa using hsk⟩
      obtain ⟨_, i', row', hi', hg', hx⟩ := t.scores s.1 s.2 hs'
      rw [HasVector.unique he ⟨i, hi, hg⟩ ⟨i', hi', hg'⟩, ← hx]
      have hd : s ∈ fil.drop k := by
        rw [← List.take_append_drop k fil] at hsf
        rcases List.mem_append.mp hsf with h | h
        · exact absurd (List.mem_map.mpr ⟨s, h, rfl⟩) hnot
        · exact h
      rw [← List.take_append_drop k fil] at hsort
      exact (List.pairwise_append.mp hsort).2.2 r hr s hd
    · exact t.best i w row hi hg (fun h => hsk (hs w h)) hm r (List.mem_filter.mp hrf).1

/-- At most as many answers are removed as there are words of the vocabulary to be removed. -/
theorem length_without {e : Embeddings K} {q : List K} {sk : List PyStr} {n : Nat} {res : List (PyStr × K)}
    (t : IsTopK e q sk n res) (sk' : List PyStr) :
    n ≤ (res.filter fun r => decide (r.1 ∉ sk')).length + knownSkips e.vocab.words sk' := by
  have h1 := List.length_eq_length_filter_add (l := res) (fun r => decide (r.1 ∈ sk'))
  simp only [← decide_not] at h1
  rw [t.length] at h1
  have h2 : (res.filter fun r => decide (r.1 ∈ sk')).length ≤ knownSkips e.vocab.words sk' := by
    rw [← List.length_map (f := Prod.fst)]
    refine (List.subperm_of_subset (((List.filter_sublist (l := res)).map _).nodup t.nodup) ?_).length_le
    intro w hw
    obtain ⟨r, hr, rfl⟩ := List.mem_map.mp hw
    obtain ⟨h3, h4⟩ := List.mem_filter.mp hr
    obtain ⟨_, i, _, hi, _⟩ := t.scores r.1 r.2 h3
    exact List.mem_filter.mpr ⟨List.mem_of_getElem? hi, h4⟩
  omega

/-- Asking for more answers extends the answers: the first `k` of `n` answers are the answers to the same query
for `k`. -/
theorem C96_more {S S' : Sel K} (hS : S.Admissible) (hS' : S'.Admissible) (e : Embeddings K) (he : BuiltEmb e)
    (m : Mat K) (hm : e.storage = .nd m) (query : List K) (hq : query.length = m.cols) (k n : Nat) (hkn : k ≤ n)
    (skips : List PyStr) (h0 : e.vocab.words ≠ [])
    (hn : n + knownSkips e.vocab.words skips ≤ e.vocab.words.length) (hc : Comparable e query skips) :
    ∃ few many, e.similarity S query k skips = .ok few ∧ e.similarity S' query n skips = .ok many ∧
      SameAnswers (many.take k) few := by
  obtain ⟨few, r1, t1⟩ := C31_top_k S hS e he m hm query hq k skips h0 (by omega) hc
  obtain ⟨many, r2, t2⟩ := C31_top_k S' hS' e he m hm query hq n skips h0 hn hc
  refine ⟨few, many, r1, r2, ?_⟩
  have hid : (many.filter fun r => decide (r.1 ∉ skips)) = many := by
    rw [List.filter_eq_self]
    intro r hr
    simpa using (t2.scores r.1 r.2 hr).1
  have t3 := topK_without (k := k) he t2 (fun w h => h) (by rw [hid, t2.length]; exact hkn)
  rw [hid] at t3
  exact topK_same he he (fun _ _ => Iff.rfl) t3 t1 hc

/-- Skipping words is leaving them out of the answers: if enough answers are asked for, the first `k` that are not among
the words are the answers to the query that skips them. -/
theorem C96_skip {S S' : Sel K} (hS : S.Admissible) (hS' : S'.Admissible) (e : Embeddings K) (he : BuiltEmb e)
    (m : Mat K) (hm : e.storage = .nd m) (query : List K) (hq : query.length = m.cols) (k n : Nat)
    (skips more : List PyStr) (hsk : ∀ w ∈ skips, w ∈ more) (h0 : e.vocab.words ≠ [])
    (hkn : k + knownSkips e.vocab.words more ≤ n)
    (hn : n + knownSkips e.vocab.words skips ≤ e.vocab.words.length) (hc : Comparable e query skips) :
    ∃ all res, e.similarity S query n skips = .ok all ∧ e.similarity S' query k more = .ok res ∧
      SameAnswers ((all.filter fun r => decide (r.1 ∉ more)).take k) res := by
  have hc' : Comparable e query more := fun i w row hi hg hs => hc i w row hi hg fun h => hs (hsk w h)
  obtain ⟨all, r1, t1⟩ := C31_top_k S hS e he m hm query hq n skips h0 hn hc
  obtain ⟨res, r2, t2⟩ := C31_top_k S' hS' e he m hm query hq k more h0 (by omega) hc'
  refine ⟨all, res, r1, r2, ?_⟩
  have := length_without t1 more
  exact topK_same he he (fun _ _ => Iff.rfl) (topK_without he t1 hsk (by omega)) t2 hc'

/-- `word_similarity` is `embedding_similarity` for the vector of the word, without the word. -/
theorem C96_word {S S' : Sel K} (hS : S.Admissible) (hS' : S'.Admissible) (e : Embeddings K) (he : BuiltEmb e)
    (m : Mat K) (hm : e.storage = .nd m) (w : PyStr) (v : List K) (hv : e.embedding w = .ok (some v)) (k : Nat)
    (h0 : e.vocab.words ≠ []) (hk : k + knownSkips e.vocab.words [w] ≤ e.vocab.words.length)
    (hc : Comparable e v []) :
    ∃ all res, e.embeddingSimilarity S v ((k + knownSkips e.vocab.words [w] : Nat) : Int) none = .ok all ∧
      e.wordSimilarity S' w k = .ok (some res) ∧
      SameAnswers ((all.filter fun r => decide (r.1 ∉ [w])).take k) res := by
  have hl := embedding_length he.storage hv
  rw [hm] at hl
  have hc' : Comparable e v [w] := fun i w row hi hg hs => hc i w row hi hg (by simp)
  obtain ⟨all, r1, t1⟩ := (C31_embedding_similarity S hS e he m hm v hl _ h0).2 hk hc
  obtain ⟨res, r2, t2⟩ := C31_word_similarity S' hS' e he m hm w v hv k h0 hk hc'
  refine ⟨all, res, r1, r2, ?_⟩
  have := length_without t1 [w]
  exact topK_same he he (fun _ _ => Iff.rfl) (topK_without he t1 (by simp) (by omega)) t2 hc'

/-- `analogy` without the query words is `analogy` that may answer them (`skip=[]`), less the query words. -/
theorem C96_analogy {S S' : Sel K} (hS : S.Admissible) (hS' : S'.Admissible) (e : Embeddings K) (he : BuiltEmb e)
    (m : Mat K) (hm : e.storage = .nd m) (w1 w2 w3 : PyStr) (a b c : List K) (ha : e.embedding w1 = .ok (some a))
    (hb : e.embedding w2 = .ok (some b)) (hc3 : e.embedding w3 = .ok (some c)) (k : Nat) (h0 : e.vocab.words ≠ [])
    (hk : k + knownSkips e.vocab.words [w1, w2, w3] ≤ e.vocab.words.length)
    (hc : Comparable e (analogyVec a b c) []) :
    ∃ all res, e.analogy S w1 w2 w3 ((k + knownSkips e.vocab.words [w1, w2, w3] : Nat) : Int) (some []) = .ok (some all) ∧
      e.analogy S' w1 w2 w3 k none = .ok (some res) ∧
      SameAnswers ((all.filter fun r => decide (r.1 ∉ [w1, w2, w3])).take k) res := by
  have hlen : ∀ w v, e.embedding w = .ok (some v) → v.length = m.cols := by
    intro w v hv
    have := embedding_length he.storage hv
    rwa [hm] at this
  have hnil : knownSkips e.vocab.words [] = 0 := by
    unfold knownSkips
    simp
  obtain ⟨all, res, r1, r2, h⟩ := C96_skip hS hS' e he m hm (analogyVec a b c)
    (analogyVec_length (hlen _ _ ha) (hlen _ _ hb) (hlen _ _ hc3)) k _ [] [w1, w2, w3] (by simp) h0
    (Nat.le_refl _) (by rw [hnil]; exact hk) hc
  refine ⟨all, res, ?_, ?_, h⟩
  · rw [analogy_eq ha hb hc3, Option.getD_some, r1]; rfl
  · rw [analogy_eq ha hb hc3, Option.getD_none, r2]; rfl

/-- Similarity is symmetric, if dot products are: two words of the vocabulary that are among the answers for one
another are equally similar both times. -/
theorem C96_symmetric {S S' : Sel K} (hS : S.Admissible) (hS' : S'.Admissible) (e : Embeddings K) (he : BuiltEmb e)
    (m : Mat K) (hm : e.storage = .nd m) (hdot : ∀ a b : List K, NumOps.dot a b = NumOps.dot b a)
    (w w' : PyStr) (hw : w ∈ e.vocab.words) (hw' : w' ∈ e.vocab.words)
    (hc : ∀ u v, e.embedding u = .ok (some v) → Comparable e v [u]) (k k' : Nat)
    (res res' : List (PyStr × K)) (h : e.wordSimilarity S w k = .ok (some res))
    (h' : e.wordSimilarity S' w' k' = .ok (some res')) (x y : K) (hx : (w', x) ∈ res) (hy : (w, y) ∈ res') :
    x = y := by
  have h0 : e.vocab.words ≠ [] := List.ne_nil_of_mem hw
  obtain ⟨r, hr, er⟩ := word_row he hm hw
  obtain ⟨r', hr', er'⟩ := word_row he hm hw'
  have key : ∀ {S : Sel K}, S.Admissible → ∀ (w w' : PyStr) (r r' : List K), HasVector e w' r' →
      e.embedding w = .ok (some r) → ∀ (k : Nat) res, e.wordSimilarity S w k = .ok (some res) →
      ∀ x, (w', x) ∈ res → x = NumOps.dot r' r := by
    intro S hS w w' r r' hr' er k res h x hx
    by_cases hk : k + knownSkips e.vocab.words [w] ≤ e.vocab.words.length
    · obtain ⟨res2, h2, t⟩ := C31_word_similarity S hS e he m hm w r er k h0 hk (hc w r er)
      rw [h] at h2
      cases h2
      obtain ⟨_, i, row, hi, hg, hx⟩ := t.scores w' x hx
      rw [hx, HasVector.unique he ⟨i, hi, hg⟩ hr']
    · have := (C32_raises S hS e he m hm k h0).2.1 w r er (by omega)
      rw [h] at this
      cases this
  rw [key hS w w' r r' hr' er k res h x hx, key hS' w' w r' r hr er' k' res' h' y hy, hdot]

end

/-! ### The hypotheses can be met -/

example : ∃ few many, Sample.embSim.similarity (Sel.sorting Int) [1, 1] (2 : Nat) [] = .ok few ∧
    Sample.embSim.similarity (Sel.sorting Int) [1, 1] (4 : Nat) [] = .ok many ∧ SameAnswers (many.take 2) few :=
  C96_more (sorting_admissible Int) (sorting_admissible Int) Sample.embSim Sample.builtEmbSim _ rfl [1, 1] rfl 2 4
    (by decide) [] (by decide) (by decide) (fun _ _ _ _ _ _ => rfl)

example : ∃ all res, Sample.embSim.similarity (Sel.sorting Int) [1, 1] (3 : Nat) [] = .ok all ∧
    Sample.embSim.similarity (Sel.sorting Int) [1, 1] (2 : Nat) [[100]] = .ok res ∧
    SameAnswers ((all.filter fun r => decide (r.1 ∉ [[100]])).take 2) res :=
  C96_skip (sorting_admissible Int) (sorting_admissible Int) Sample.embSim Sample.builtEmbSim _ rfl [1, 1] rfl 2 3
    [] [[100]] (by simp) (by decide) (by decide) (by decide) (fun _ _ _ _ _ _ => rfl)

example : ∃ all res, Sample.embSim.embeddingSimilarity (Sel.sorting Int) [1, 2] (3 : Int) none = .ok all ∧
    Sample.embSim.wordSimilarity (Sel.sorting Int) [98] (2 : Nat) = .ok (some res) ∧
    SameAnswers ((all.filter fun r => decide (r.1 ∉ [[98]])).take 2) res :=
  C96_word (sorting_admissible Int) (sorting_admissible Int) Sample.embSim Sample.builtEmbSim _ rfl [98] [1, 2]
    (by decide +kernel) 2 (by decide) (by decide) (fun _ _ _ _ _ _ => rfl)

example : ∃ all res, Sample.embSim.analogy (Sel.sorting Int) [97] [98] [99] (4 : Int) (some []) = .ok (some all) ∧
    Sample.embSim.analogy (Sel.sorting Int) [97] [98] [99] (1 : Nat) none = .ok (some res) ∧
    SameAnswers ((all.filter fun r => decide (r.1 ∉ [[97], [98], [99]])).take 1) res :=
  C96_analogy (sorting_admissible Int) (sorting_admissible Int) Sample.embSim Sample.builtEmbSim _ rfl [97] [98] [99]
    [3, 0] [1, 2] [0, 5] (by decide +kernel) (by decide +kernel) (by decide +kernel) 1 (by decide) (by decide)
    (fun _ _ _ _ _ _ => rfl)

/-- The dot products of integer vectors are symmetric; `a` and `b` are neighbours of one another. -/
example : (∀ a b : List Int, NumOps.dot a b = NumOps.dot b a) ∧
    Sample.embSim.wordSimilarity (Sel.sorting Int) [98] (4 : Nat) =
      .ok (some [([99], 10), ([100], 6), ([101], 5), ([97], 3)]) ∧
    Sample.embSim.wordSimilarity (Sel.sorting Int) [97] (4 : Nat) =
      .ok (some [([100], 6), ([101], 3), ([98], 3), ([99], 0)]) := by
  refine ⟨fun a => ?_, by decide +kernel, by decide +kernel⟩
  show ∀ b, sumProd a b = sumProd b a
  induction a with
  | nil => intro b; cases b <;> rfl
  | cons x a ih =>
    intro b
    cases b with
    | nil => rfl
    | cons y b => show x * y + sumProd a b = y * x + sumProd b a; rw [ih, mul_comm]

end FF
