import Verif.Lemmas.VocabIO
import Verif.Spec.Built
import Mathlib.Tactic.Ring
/-! Serialisation of storages, norms and metadata. -/

namespace FF

variable {α β : Type}

/-- On a truncated file the reader raises, or returns the same value and is at the end. -/
def SameShort (m : Rd α) (pre enc : Bytes) (a : α) : Prop :=
  ∀ k, k < enc.length → (∃ e, m ⟨pre ++ enc.take k, pre.length⟩ = .error e) ∨
    ∃ s', m ⟨pre ++ enc.take k, pre.length⟩ = .ok (a, s') ∧ s'.data = pre ++ enc.take k ∧
      s'.data.length ≤ s'.pos

/-- At the end of the file the reader raises or returns `a`, staying there. -/
def EofIs (m : Rd α) (a : α) : Prop :=
  ∀ s : RFile, s.data.length ≤ s.pos → (∃ e, m s = .error e) ∨
    ∃ s', m s = .ok (a, s') ∧ s'.data = s.data ∧ s.data.length ≤ s'.pos

theorem FailsShort.same {m : Rd α} {pre enc : Bytes} (h : FailsShort m pre enc) (a : α) :
    SameShort m pre enc a := fun k hk => Or.inl (h k hk)

theorem FailsShort.same_ {m : Rd α} {pre enc : Bytes} {a : α} (h : FailsShort m pre enc) :
    SameShort m pre enc a := h.same a

theorem FailsEof.eofIs {m : Rd α} (h : FailsEof m) (a : α) : EofIs m a := fun s hs => Or.inl (h s hs)

theorem SameShort.nil (m : Rd α) (pre : Bytes) (a : α) : SameShort m pre [] a := by
  intro k hk; simp at hk

theorem EofIs.pure (a : α) : EofIs (pure a : Rd α) a := fun s hs => Or.inr ⟨s, rfl, rfl, hs⟩

theorem EofIs.lift {r : Res α} {a : α} (h : r = .ok a) : EofIs (Rd.lift r) a := by
  subst h; exact fun s hs => Or.inr ⟨s, rfl, rfl, hs⟩

theorem EofIs.bind {m : Rd α} {f : α → Rd β} {a : α} {b : β} (h1 : EofIs m a) (h2 : EofIs (f a) b) :
    EofIs (m >>= f) b := by
  intro s hs
  rcases h1 s hs with ⟨e, he⟩ | ⟨s', h, hd, hp⟩
  · exact Or.inl ⟨e, rd_bind_error he⟩
  · rw [rd_bind_ok h]
    rcases h2 s' (by rw [hd]; exact hp) with ⟨e, he⟩ | ⟨s'', h', hd', hp'⟩
    · exact Or.inl ⟨e, he⟩
    · exact Or.inr ⟨s'', h', by rw [hd', hd], by rw [← hd]; exact hp'⟩

theorem FailsEof.bind_is {m : Rd α} {f : α → Rd β} {a : α} (h1 : EofIs m a) (h2 : FailsEof (f a)) :
    FailsEof (m >>= f) := by
  intro s hs
  rcases h1 s hs with ⟨e, he⟩ | ⟨s', h, hd, hp⟩
  · exact ⟨e, rd_bind_error he⟩
  · rw [rd_bind_ok h]
    exact h2 s' (by rw [hd]; exact hp)

theorem SameShort.bind {m : Rd α} {f : α → Rd β} {pre e1 e2 : Bytes} {a : α} {b : β}
    (hp : Parses m pre e1 a) (h1 : SameShort m pre e1 a) (hf : EofIs (f a) b)
    (h2 : SameShort (f a) (pre ++ e1) e2 b) : SameShort (m >>= f) pre (e1 ++ e2) b := by
  intro k hk
  rcases take_append_cases e1 e2 k hk with ⟨h, e⟩ | ⟨j, hj, e⟩
  · rw [e]
    rcases h1 k h with ⟨er, her⟩ | ⟨s', hs, hd, hpos⟩
    · exact Or.inl ⟨er, rd_bind_error her⟩
    · rw [rd_bind_ok hs]
      rcases hf s' hpos with ⟨er, her⟩ | ⟨s'', h', hd', hp'⟩
      · exact Or.inl ⟨er, her⟩
      · exact Or.inr ⟨s'', h', by rw [hd', hd], by rw [hd']; exact hp'⟩
  · rw [e]
    have hp' := hp (e2.take j)
    rw [← List.append_assoc, rd_bind_ok hp']
    rcases h2 j hj with ⟨er, her⟩ | h
    · exact Or.inl ⟨er, her⟩
    · exact Or.inr h

theorem FailsShort.bind_same {m : Rd α} {f : α → Rd β} {pre e1 e2 : Bytes} {a : α}
    (hp : Parses m pre e1 a) (h1 : SameShort m pre e1 a) (hf : FailsEof (f a))
    (h2 : FailsShort (f a) (pre ++ e1) e2) : FailsShort (m >>= f) pre (e1 ++ e2) := by
  intro k hk
  rcases take_append_cases e1 e2 k hk with ⟨h, e⟩ | ⟨j, hj, e⟩
  · rw [e]
    rcases h1 k h with ⟨er, her⟩ | ⟨s', hs, hd, hpos⟩
    · exact ⟨er, rd_bind_error her⟩
    · rw [rd_bind_ok hs]
      exact hf s' hpos
  · rw [e]
    have hp' := hp (e2.take j)
    rw [← List.append_assoc, rd_bind_ok hp']
    exact h2 j hj

theorem SameShort.bind_nil {m : Rd α} {f : α → Rd β} {pre e : Bytes} {a : α} {b : β}
    (h1 : Parses m pre [] a) (h2 : SameShort (f a) pre e b) : SameShort (m >>= f) pre e b := by
  intro k hk
  have h1' := h1 (e.take k)
  simp only [List.append_nil] at h1'
  rw [rd_bind_ok h1']
  exact h2 k hk

theorem SameShort.bind_last {m : Rd α} {f : α → Rd β} {pre e : Bytes} {a : α} {b : β}
    (hp : Parses m pre e a) (h1 : SameShort m pre e a) (hf : EofIs (f a) b) :
    SameShort (m >>= f) pre e b := by
  have := SameShort.bind hp h1 hf (e2 := []) (SameShort.nil _ _ _)
  simpa using this

theorem FailsShort.bind_last {m : Rd α} {f : α → Rd β} {pre e : Bytes} {a : α}
    (_hp : Parses m pre e a) (h1 : FailsShort m pre e) : FailsShort (m >>= f) pre e := by
  intro k hk
  obtain ⟨er, her⟩ := h1 k hk
  exact ⟨er, rd_bind_error her⟩

theorem seekCur_same (pre enc : Bytes) (n : Nat) (hn : enc.length = n) :
    SameShort (seekCur n) pre enc () := by
  intro k hk
  rcases seekCur_weak pre enc n hn k hk with h | ⟨a, s', h, hd, hp⟩
  · exact Or.inl h
  · exact Or.inr ⟨s', h, hd, by rw [hd]; exact hp⟩

theorem seekCur_eofIs (n : Nat) : EofIs (seekCur n) () := by
  intro s hs
  rcases seekCur_stays n s hs with h | ⟨a, s', h⟩
  · exact Or.inl h
  · exact Or.inr ⟨s', h⟩

/-! ### Reshape -/

theorem splitRows_flatten {K : Type} (c : Nat) (rows : List (List K))
    (h : ∀ r ∈ rows, r.length = c) : splitRows rows.length c rows.flatten = rows := by
  induction rows with
  | nil => rfl
  | cons r rs ih =>
    have hr := h r (by simp)
    simp only [List.length_cons, splitRows, List.flatten_cons]
    rw [← hr]
    simp only [List.take_left', List.drop_left']
    rw [hr, ih (fun x hx => h x (List.mem_cons_of_mem _ hx))]

theorem length_flatten_const {K : Type} (c : Nat) (rows : List (List K))
    (h : ∀ r ∈ rows, r.length = c) : rows.flatten.length = rows.length * c := by
  induction rows with
  | nil => simp
  | cons r rs ih =>
    simp only [List.flatten_cons, List.length_append, List.length_cons]
    rw [ih (fun x hx => h x (List.mem_cons_of_mem _ hx)), h r (by simp)]
    ring

theorem Mat.WF.flat_length {K : Type} {m : Mat K} (h : m.WF) : m.flat.length = m.size :=
  length_flatten_const _ _ h

theorem ShapeOk.cols {r c : Nat} (h : ShapeOk r c) : 4 * c < maxSize := by
  have h1 : 1 * max 1 c ≤ max 1 r * max 1 c := Nat.mul_le_mul_right _ (by omega)
  unfold ShapeOk at h
  unfold maxSize
  omega

theorem ShapeOk.rows {r c : Nat} (h : ShapeOk r c) : 4 * r < maxSize := by
  have h1 : max 1 r * 1 ≤ max 1 r * max 1 c := Nat.mul_le_mul_left _ (by omega)
  unfold ShapeOk at h
  unfold maxSize
  omega

theorem ShapeOk.size {r c : Nat} (h : ShapeOk r c) : 4 * (r * c) < maxSize := by
  have h1 : r * c ≤ max 1 r * max 1 c := Nat.mul_le_mul (by omega) (by omega)
  unfold ShapeOk at h
  unfold maxSize
  omega

theorem shapeOk_of {r c : Nat} (h : 4 * (r * c) < 2 ^ 63) (hr : 4 * r < 2 ^ 63) (hc : 4 * c < 2 ^ 63) :
    ShapeOk r c := by
  unfold ShapeOk
  rcases Nat.eq_zero_or_pos r with rfl | h1 <;> rcases Nat.eq_zero_or_pos c with rfl | h2
  · decide
  · rw [Nat.max_eq_right h2]; simpa using hc
  · rw [Nat.max_eq_right h1]; simpa using hr
  · rw [Nat.max_eq_right h1, Nat.max_eq_right h2]; exact h

theorem arrayFits_mat {r c : Nat} (h : ShapeOk r c) : arrayFits 4 [r, c] = true := by
  unfold ShapeOk at h
  simp only [arrayFits, List.map_cons, List.map_nil, List.prod_cons, List.prod_nil, Nat.mul_one, maxSize,
    decide_eq_true_eq]
  exact h

theorem arrayFits_iff {r c : Nat} : arrayFits 4 [r, c] = true ↔ ShapeOk r c := by
  unfold ShapeOk
  simp only [arrayFits, List.map_cons, List.map_nil, List.prod_cons, List.prod_nil, Nat.mul_one, maxSize,
    decide_eq_true_eq]

theorem arrayFits_three {a b c : Nat} :
    arrayFits 4 [a, b, c] = true ↔ 4 * (max 1 a * (max 1 b * max 1 c)) < 2 ^ 63 := by
  simp only [arrayFits, List.map_cons, List.map_nil, List.prod_cons, List.prod_nil, Nat.mul_one, maxSize,
    decide_eq_true_eq]

theorem zerosShape_ok {r c : Nat} (h : ShapeOk r c) : zerosShape (r : Int) (c : Int) = .ok (r, c) := by
  unfold ShapeOk at h
  unfold zerosShape
  have h4 : (4 * (max 1 (r : Int) * max 1 (c : Int))) = ((4 * (max 1 r * max 1 c) : Nat) : Int) := by push_cast; rfl
  rw [if_neg]
  · rfl
  · rw [h4]
    unfold maxSize
    omega

theorem zerosShape_iff {rows cols : Int} {s : Nat × Nat} :
    zerosShape rows cols = .ok s ↔ rows = s.1 ∧ cols = s.2 ∧ ShapeOk s.1 s.2 := by
  constructor
  · intro h
    unfold zerosShape at h
    split at h
    · cases h
    · rename_i hn
      cases h
      simp only [not_or, not_lt, not_le] at hn
      obtain ⟨h1, h2, h5⟩ := hn
      obtain ⟨r, rfl⟩ := Int.eq_ofNat_of_zero_le h1
      obtain ⟨c, rfl⟩ := Int.eq_ofNat_of_zero_le h2
      simp only [Int.toNat_natCast]
      unfold maxSize at h5
      refine ⟨trivial, trivial, ?_⟩
      have : 4 * (max 1 (r : Int) * max 1 (c : Int)) = ((4 * (max 1 r * max 1 c) : Nat) : Int) := by push_cast; rfl
      unfold ShapeOk
      rw [this] at h5
      omega
  · rintro ⟨rfl, rfl, h⟩
    exact zerosShape_ok h

theorem zerosShape_error {r c : Int} {x : PyErr} (h : zerosShape r c = .error x) : x = .valueError := by
  unfold zerosShape at h
  split at h
  · cases h; rfl
  · cases h

/-- Square matrices and byte matrices of small width that can be counted can be shaped. -/
theorem shapeOk_sq {n : Nat} (h : 4 * n ^ 2 < maxSize) : ShapeOk n n := by
  unfold ShapeOk
  unfold maxSize at h
  rcases Nat.eq_zero_or_pos n with rfl | h0
  · decide
  · rw [Nat.max_eq_right h0, ← sq]; exact h

theorem arrayFits_bytes {n c : Nat} (h : n * c < maxSize) (h0 : 0 < c) (hc : c < maxSize) :
    arrayFits 1 [n, c] = true := by
  simp only [arrayFits, List.map_cons, List.map_nil, List.prod_cons, List.prod_nil, Nat.mul_one, Nat.one_mul,
    decide_eq_true_eq]
  rw [Nat.max_eq_right h0]
  rcases Nat.eq_zero_or_pos n with rfl | h1
  · simpa using hc
  · rw [Nat.max_eq_right h1]; exact h

theorem reshape2_flat {K : Type} {n : Nat} (m : Mat K) (h : m.WF) (hf : arrayFits n [m.rows.length, m.cols] = true) :
    reshape2 n m.rows.length m.cols m.flat = .ok m := by
  unfold reshape2
  have := h.flat_length
  unfold Mat.size at this
  rw [if_pos ⟨this, hf⟩]
  unfold Mat.flat
  rw [splitRows_flatten _ _ h]

theorem reshape2_short {K : Type} (n r c : Nat) (xs : List K) (h : xs.length ≠ r * c) :
    reshape2 n r c xs = .error .valueError := by
  unfold reshape2; rw [if_neg fun k => h k.1]

theorem reshape3_flat {K : Type} {n : Nat} (b c : Nat) (t : List (List (List K)))
    (h1 : ∀ m ∈ t, m.length = b) (h2 : ∀ m ∈ t, ∀ r ∈ m, r.length = c)
    (hf : arrayFits n [t.length, b, c] = true) : reshape3 n t.length b c (t.map List.flatten).flatten = .ok t := by
  unfold reshape3
  have hr : ∀ r ∈ t.map List.flatten, r.length = b * c := by
    intro r hr
    obtain ⟨m, hm, rfl⟩ := List.mem_map.mp hr
    rw [length_flatten_const c m (h2 m hm), h1 m hm]
  have hl := length_flatten_const (b * c) (t.map List.flatten) hr
  rw [List.length_map] at hl
  rw [if_pos ⟨hl, hf⟩]
  have := splitRows_flatten (b * c) (t.map List.flatten) hr
  rw [List.length_map] at this
  rw [this, List.map_map]
  congr 1
  have : ∀ m ∈ t, (splitRows b c ∘ List.flatten) m = m := by
    intro m hm
    simp only [Function.comp]
    rw [← h1 m hm]
    exact splitRows_flatten c m (h2 m hm)
  conv_rhs => rw [← List.map_id t]
  exact List.map_congr_left this

theorem reshape3_short {K : Type} (n a b c : Nat) (xs : List K) (h : xs.length ≠ a * (b * c)) :
    reshape3 n a b c xs = .error .valueError := by
  unfold reshape3; rw [if_neg fun k => h k.1]

theorem fromFileF32_big (n : Nat) (h : ¬ 4 * n < maxSize) (s : RFile) : ∃ e, fromFileF32 n s = .error e := by
  unfold fromFileF32
  rw [if_neg h]
  split
  · exact ⟨_, rfl⟩
  · exact ⟨_, rfl⟩

theorem fromFileF32_stays (n : Nat) : StaysEof (fromFileF32 n) := by
  intro s hs
  by_cases h : 4 * n < maxSize
  · exact Or.inr ⟨[], s, fromFileF32_eof n s hs h, rfl, hs⟩
  · exact Or.inl (fromFileF32_big n h s)

theorem fromFileF32_weak (pre enc : Bytes) (n : Nat) (hn : enc.length = 4 * n) (h : 4 * n < maxSize) :
    WeakShort (fromFileF32 n) pre enc := by
  intro k hk
  exact Or.inr ⟨_, _, fromFileF32_short pre enc n k hn hk h, rfl, by simp⟩

/-- Reading an array and reshaping it fails on truncated files. -/
theorem fromFileF32_check_short {β : Type} (pre enc : Bytes) (n : Nat) (hn : enc.length = 4 * n)
    (f : List F32 → Rd β) (hf : ∀ xs s, xs.length ≠ n → ∃ e, f xs s = .error e) :
    FailsShort (fromFileF32 n >>= f) pre enc := by
  intro k hk
  by_cases h : 4 * n < maxSize
  · rw [rd_bind_ok (fromFileF32_short pre enc n k hn hk h)]
    apply hf
    rw [length_f32sOf]
    simp; omega
  · obtain ⟨e, he⟩ := fromFileF32_big n h _
    exact ⟨e, rd_bind_error he⟩

theorem fromFileF32_check_eof {β : Type} (n : Nat) (h0 : n ≠ 0)
    (f : List F32 → Rd β) (hf : ∀ xs s, xs.length ≠ n → ∃ e, f xs s = .error e) :
    FailsEof (fromFileF32 n >>= f) := by
  intro s hs
  by_cases h : 4 * n < maxSize
  · rw [rd_bind_ok (fromFileF32_eof n s hs h)]
    apply hf
    simpa using Ne.symm h0
  · obtain ⟨e, he⟩ := fromFileF32_big n h _
    exact ⟨e, rd_bind_error he⟩

theorem fromFileU8_check_short {β : Type} (pre enc : Bytes) (n : Nat) (hn : enc.length = n)
    (f : Bytes → Rd β) (hf : ∀ xs s, xs.length ≠ n → ∃ e, f xs s = .error e) :
    FailsShort (fromFileU8 n >>= f) pre enc := by
  intro k hk
  by_cases h : n < maxSize
  · rw [rd_bind_ok (fromFileU8_short pre enc n k hn hk h)]
    apply hf
    simp; omega
  · exact ⟨_, rd_bind_error (e := .overflowError) (by simp [fromFileU8, h])⟩

theorem fromFileU8_check_eof {β : Type} (n : Nat) (h0 : n ≠ 0)
    (f : Bytes → Rd β) (hf : ∀ xs s, xs.length ≠ n → ∃ e, f xs s = .error e) :
    FailsEof (fromFileU8 n >>= f) := by
  intro s hs
  by_cases h : n < maxSize
  · rw [rd_bind_ok (fromFileU8_eof n s hs h)]
    apply hf
    simpa using Ne.symm h0
  · exact ⟨_, rd_bind_error (e := .overflowError) (by simp [fromFileU8, h])⟩

theorem fromFileF32_zero_eofIs : EofIs (fromFileF32 0) [] := by
  intro s hs
  exact Or.inr ⟨s, fromFileF32_eof 0 s hs (by decide), rfl, hs⟩

theorem fromFileU8_zero_eofIs : EofIs (fromFileU8 0) [] := by
  intro s hs
  exact Or.inr ⟨s, fromFileU8_eof 0 s hs (by decide), rfl, hs⟩

theorem lift_bind_error {r : Res α} {f : α → Rd β} {e : PyErr} (h : r = .error e) (s : RFile) :
    (Rd.lift r >>= f) s = .error e := by
  subst h; exact rd_bind_error rfl

/-! ### NdArray -/

def ndBody (pad : Nat) (m : Mat F32) : Bytes :=
  packRaw [(8, m.rows.length), (4, m.cols)] ++ (le 4 10 ++ (zeros pad ++ f32sLE m.flat))

def ndLen (pad : Nat) (m : Mat F32) : Nat := 16 + pad + 4 * m.size

theorem ndWrite_inv {m : Mat F32} {s s' : Bytes} {u : Unit} (h : writeNdArray m s = (.ok u, s')) :
    s' = s ++ (chunkHead .ndArray (ndLen (padFloat32 (s.length + 4)) m) ++
        ndBody (padFloat32 (s.length + 4)) m) ∧
      m.rows.length < 256 ^ 8 ∧ m.cols < 256 ^ 4 ∧
      ndLen (padFloat32 (s.length + 4)) m < 256 ^ 8 ∧ s'.length < maxSize := by
  unfold writeNdArray at h
  obtain ⟨_, s1, h1, h⟩ := wr_bind_inv h
  obtain ⟨rfl, _, _⟩ := writeBinary_inv h1
  obtain ⟨n, s2, h2, h⟩ := wr_bind_inv h
  obtain ⟨rfl, rfl⟩ := wr_tell_inv h2
  have hpos : (s ++ packRaw [(4, ChunkId.ndArray.toNat)]).length = s.length + 4 := by
    simp [calcsize]
  rw [hpos] at h
  obtain ⟨_, s3, h3, h⟩ := wr_bind_inv h
  obtain ⟨rfl, hr, _⟩ := writeBinary_inv h3
  obtain ⟨_, s4, h4, h⟩ := wr_bind_inv h
  obtain ⟨rfl, _⟩ := wr_bytes_inv h4
  obtain ⟨rfl, hl⟩ := wr_bytes_inv h
  simp only [calcsize, List.sum_cons, List.sum_nil, Nat.add_zero, Nat.reduceAdd] at hr hl ⊢
  refine ⟨?_, ?_, ?_, ?_, hl⟩
  · simp [chunkHead, packRaw, ndBody, ndLen, TypeId.toNat]
  · exact hr (8, m.rows.length) (by simp)
  · exact hr (4, m.cols) (by simp)
  · exact hr (8, _) List.mem_cons_self

theorem length_ndBody (pad : Nat) (m : Mat F32) (h : m.WF) : (ndBody pad m).length = ndLen pad m := by
  simp only [ndBody, ndLen, List.length_append, length_packRaw, length_le, length_zeros,
    length_f32sLE, h.flat_length]
  simp [calcsize]; omega

/-- The position-dependent part after the shape fields. -/
theorem pad_shift (p q : Nat) (h : p % 4 = q % 4) : padFloat32 p = padFloat32 q := by
  unfold padFloat32; omega

theorem readArrayHeader_parses (rows cols : Nat) (pre : Bytes) (hr : rows < 256 ^ 8)
    (hc : cols < 256 ^ 4) (hl : pre.length + 16 + padFloat32 (pre.length + 16) < maxSize) :
    Parses readArrayHeader pre (packRaw [(8, rows), (4, cols)] ++
      (le 4 10 ++ zeros (padFloat32 (pre.length + 16)))) (rows, cols) := by
  unfold readArrayHeader
  refine Parses.bind (readRequired_parses [8, 4] [(8, rows), (4, cols)] pre rfl (by decide)
    (by decide) ?_) ?_
  · intro f hm
    simp only [List.mem_cons, List.not_mem_nil, or_false] at hm
    rcases hm with rfl | rfl
    · exact hr
    · exact hc
  · simp only [List.map_cons, List.map_nil]
    refine Parses.bind (readOne_parses 4 10 _ (by decide) (by decide) (by decide)) ?_
    refine Parses.bind_nil (Parses.lift (a := TypeId.f32) _ rfl) ?_
    rw [if_neg (by decide)]
    refine Parses.bind_nil (Parses.tell _) ?_
    have hp : (pre ++ packRaw [(8, rows), (4, cols)] ++ le 4 10).length = pre.length + 16 := by
      simp [calcsize]
    rw [hp]
    have hpd := (padFloat32_pos (pre.length + 16)).2
    refine Parses.bind_last (seekCur_parses _ _ _ (by simp) ?_) (Parses.pure _ _)
    rw [List.length_append, hp]
    simp; omega

theorem readArrayHeader_same (rows cols : Nat) (pre : Bytes) (hr : rows < 256 ^ 8)
    (hc : cols < 256 ^ 4) :
    SameShort readArrayHeader pre (packRaw [(8, rows), (4, cols)] ++
      (le 4 10 ++ zeros (padFloat32 (pre.length + 16)))) (rows, cols) := by
  unfold readArrayHeader
  refine SameShort.bind (readRequired_parses [8, 4] [(8, rows), (4, cols)] pre rfl (by decide)
    (by decide) ?_) (readRequired_short _ _ _ (by simp)).same_ ?_ ?_
  · intro f hm
    simp only [List.mem_cons, List.not_mem_nil, or_false] at hm
    rcases hm with rfl | rfl
    · exact hr
    · exact hc
  · simp only [List.map_cons, List.map_nil]
    exact ((readOne_eof 4).bind).eofIs _
  · simp only [List.map_cons, List.map_nil]
    refine SameShort.bind (readOne_parses 4 10 _ (by decide) (by decide) (by decide))
      (readOne_short 4 _ _ (by simp)).same_ ?_ ?_
    · refine EofIs.bind (EofIs.lift (a := TypeId.f32) rfl) ?_
      rw [if_neg (by decide)]
      intro s hs
      rw [rd_bind_ok (rd_tell s)]
      exact (EofIs.bind (f := fun _ => pure (rows, cols)) (seekCur_eofIs _) (EofIs.pure _)) s hs
    · refine SameShort.bind_nil (Parses.lift (a := TypeId.f32) _ rfl) ?_
      rw [if_neg (by decide)]
      refine SameShort.bind_nil (Parses.tell _) ?_
      have hp : (pre ++ packRaw [(8, rows), (4, cols)] ++ le 4 10).length = pre.length + 16 := by
        simp [calcsize]
      rw [hp]
      intro k hk
      rcases seekCur_same (pre ++ packRaw [(8, rows), (4, cols)] ++ le 4 10)
        (zeros (padFloat32 (pre.length + 16))) (padFloat32 (pre.length + 16)) (by simp) k hk with ⟨e, he⟩ | ⟨s', h, hd, hpos⟩
      · exact Or.inl ⟨e, rd_bind_error he⟩
      · exact Or.inr ⟨s', by rw [rd_bind_ok h]; rfl, hd, hpos⟩

theorem readArrayHeader_eof : FailsEof readArrayHeader := (readRequired_eof _).bind

theorem ndBody_eq (pad : Nat) (m : Mat F32) : ndBody pad m =
    (packRaw [(8, m.rows.length), (4, m.cols)] ++ (le 4 10 ++ zeros pad)) ++ f32sLE m.flat := by
  simp [ndBody]

theorem readNdArray_parses (m : Mat F32) (hw : m.WF) (hok : ShapeOk m.rows.length m.cols) (pre : Bytes) (hr : m.rows.length < 256 ^ 8)
    (hc : m.cols < 256 ^ 4) (hs : 4 * m.size < maxSize) (hl : pre.length + 16 + padFloat32 (pre.length + 16) < maxSize) :
    Parses readNdArray pre (ndBody (padFloat32 (pre.length + 16)) m) m := by
  rw [ndBody_eq]
  unfold readNdArray
  refine Parses.bind (readArrayHeader_parses _ _ pre hr hc hl) ?_
  refine Parses.bind_last (fromFileF32_parses m.flat _ _ hw.flat_length hs) ?_
  exact Parses.lift _ (reshape2_flat m hw (arrayFits_mat hok))

theorem readNdArray_tail_short (rows cols : Nat) (xs : List F32) (s : RFile)
    (h : xs.length ≠ rows * cols) : ∃ e, Rd.lift (reshape2 4 rows cols xs) s = .error e := by
  rw [reshape2_short _ _ _ _ h]; exact ⟨_, rfl⟩

/-- A truncated array with at least one element is detected. -/
theorem readNdArray_short (m : Mat F32) (hw : m.WF) (pre : Bytes) (hr : m.rows.length < 256 ^ 8)
    (hc : m.cols < 256 ^ 4) (h0 : m.size ≠ 0) (hl : pre.length + 16 + padFloat32 (pre.length + 16) < maxSize) :
    FailsShort readNdArray pre (ndBody (padFloat32 (pre.length + 16)) m) := by
  rw [ndBody_eq]
  unfold readNdArray
  refine FailsShort.bind_same (readArrayHeader_parses _ _ pre hr hc hl)
    (readArrayHeader_same _ _ pre hr hc) ?_ ?_
  · exact fromFileF32_check_eof _ h0 _ (readNdArray_tail_short _ _)
  · exact fromFileF32_check_short _ _ _ (by rw [length_f32sLE, hw.flat_length]; rfl) _
      (readNdArray_tail_short _ _)

/-- A truncated array is detected or unchanged. -/
theorem readNdArray_same (m : Mat F32) (hw : m.WF) (hok : ShapeOk m.rows.length m.cols) (pre : Bytes) (hr : m.rows.length < 256 ^ 8)
    (hc : m.cols < 256 ^ 4) (hl : pre.length + 16 + padFloat32 (pre.length + 16) < maxSize) :
    SameShort readNdArray pre (ndBody (padFloat32 (pre.length + 16)) m) m := by
  by_cases h0 : m.size = 0
  · rw [ndBody_eq]
    unfold readNdArray
    have hf := hw.flat_length
    have hf0 : m.flat = [] := by rw [h0] at hf; simpa using hf
    refine SameShort.bind (readArrayHeader_parses _ _ pre hr hc hl)
      (readArrayHeader_same _ _ pre hr hc) ?_ ?_
    · unfold Mat.size at h0
      show EofIs (fromFileF32 (m.rows.length * m.cols) >>= _) m
      rw [h0]
      refine EofIs.bind fromFileF32_zero_eofIs ?_
      refine EofIs.lift ?_
      rw [← hf0]; exact reshape2_flat m hw (arrayFits_mat hok)
    · rw [hf0]; exact SameShort.nil _ _ _
  · exact (readNdArray_short m hw pre hr hc h0 hl).same m

/-! ### QuantizedArray -/

def qHead (q : QArr F32) : Bytes :=
  le 4 (if q.pq.projection.isSome then 1 else 0) ++ (le 4 (if q.norms.isSome then 1 else 0) ++
  (le 4 q.qlen ++ (le 4 q.pq.reconstructedLen ++ (le 4 q.pq.nCentroids ++ (le 8 q.codes.length ++
  (le 4 1 ++ le 4 10))))))

def optF32 : Option (List F32) → Bytes
  | some n => f32sLE n
  | none => []

def qBody (pad : Nat) (q : QArr F32) : Bytes :=
  qHead q ++ (zeros pad ++ (optF32 (q.pq.projection.map Mat.flat) ++
  (f32sLE (q.pq.quantizers.map List.flatten).flatten ++ (optF32 q.norms ++ q.codes.flatten))))

def qLen (pad : Nat) (q : QArr F32) : Nat :=
  36 + pad + (match q.pq.projection with
    | some _ => 4 * q.pq.reconstructedLen ^ 2
    | none => 0) + 4 * (q.pq.quantizers.length * q.pq.nCentroids * q.pq.sub) +
    (match q.norms with
    | some n => 4 * n.length
    | none => 0) + q.codes.length * q.qlen

structure QFits (q : QArr F32) : Prop where
  qlen : q.qlen < 256 ^ 4
  recLen : q.pq.reconstructedLen < 256 ^ 4
  cent : q.pq.nCentroids < 256 ^ 4
  rows : q.codes.length < 256 ^ 8

theorem qWrite_inv {q : QArr F32} {s s' : Bytes} {u : Unit} (h : writeQuantized q s = (.ok u, s')) :
    s' = s ++ (chunkHead .quantizedArray (qLen (padFloat32 (s.length + 4)) q) ++
        qBody (padFloat32 (s.length + 4)) q) ∧ QFits q ∧
      qLen (padFloat32 (s.length + 4)) q < 256 ^ 8 ∧ s'.length < maxSize := by
  unfold writeQuantized at h
  obtain ⟨_, s1, h1, h⟩ := wr_bind_inv h
  obtain ⟨rfl, _, _⟩ := writeBinary_inv h1
  obtain ⟨n, s2, h2, h⟩ := wr_bind_inv h
  obtain ⟨rfl, rfl⟩ := wr_tell_inv h2
  have hpos : (s ++ packRaw [(4, ChunkId.quantizedArray.toNat)]).length = s.length + 4 := by
    simp [calcsize]
  rw [hpos] at h
  simp only at h
  obtain ⟨_, s3, h3, h⟩ := wr_bind_inv h
  obtain ⟨rfl, hr, _⟩ := writeBinary_inv h3
  obtain ⟨_, s4, h4, h⟩ := wr_bind_inv h
  obtain ⟨rfl, _⟩ := wr_bytes_inv h4
  have hfit : QFits q :=
    ⟨hr (4, q.qlen) (by simp), hr (4, q.pq.reconstructedLen) (by simp),
      hr (4, q.pq.nCentroids) (by simp), hr (8, q.codes.length) (by simp)⟩
  have hlen := hr (8, _) List.mem_cons_self
  simp only [calcsize, List.sum_cons, List.sum_nil, Nat.add_zero, Nat.reduceAdd] at hlen h ⊢
  cases hp : q.pq.projection with
  | none =>
    rw [hp] at h hlen
    obtain ⟨_, s6, h6, h⟩ := wr_bind_inv h
    obtain ⟨rfl, _⟩ := wr_bytes_inv h6
    cases hn : q.norms with
    | none =>
      rw [hn] at h hlen
      obtain ⟨rfl, hl⟩ := wr_bytes_inv h
      refine ⟨?_, hfit, ?_, hl⟩
      · simp [chunkHead, packRaw, qBody, qHead, qLen, optF32, TypeId.toNat, hp, hn]
      · simpa [qLen, hp, hn] using hlen
    | some n =>
      rw [hn] at h hlen
      obtain ⟨_, s7, h7, h⟩ := wr_bind_inv h
      obtain ⟨rfl, _⟩ := wr_bytes_inv h7
      obtain ⟨rfl, hl⟩ := wr_bytes_inv h
      refine ⟨?_, hfit, ?_, hl⟩
      · simp [chunkHead, packRaw, qBody, qHead, qLen, optF32, TypeId.toNat, hp, hn]
      · simpa [qLen, hp, hn] using hlen
  | some p =>
    rw [hp] at h hlen
    obtain ⟨_, s5, h5, h⟩ := wr_bind_inv h
    obtain ⟨rfl, _⟩ := wr_bytes_inv h5
    obtain ⟨_, s6, h6, h⟩ := wr_bind_inv h
    obtain ⟨rfl, _⟩ := wr_bytes_inv h6
    cases hn : q.norms with
    | none =>
      rw [hn] at h hlen
      obtain ⟨rfl, hl⟩ := wr_bytes_inv h
      refine ⟨?_, hfit, ?_, hl⟩
      · simp [chunkHead, packRaw, qBody, qHead, qLen, optF32, TypeId.toNat, hp, hn]
      · simpa [qLen, hp, hn] using hlen
    | some n =>
      rw [hn] at h hlen
      obtain ⟨_, s7, h7, h⟩ := wr_bind_inv h
      obtain ⟨rfl, _⟩ := wr_bytes_inv h7
      obtain ⟨rfl, hl⟩ := wr_bytes_inv h
      refine ⟨?_, hfit, ?_, hl⟩
      · simp [chunkHead, packRaw, qBody, qHead, qLen, optF32, TypeId.toNat, hp, hn]
      · simpa [qLen, hp, hn] using hlen

/-- Restart point: a reader composed with a continuation, reading a field first. -/
theorem FailsShort.readOne_bind {w n : Nat} {f : Nat → Rd β} {pre e2 : Bytes} (h0 : 0 < w)
    (h : w < maxSize) (hr : n < 256 ^ w) (h2 : FailsShort (f n) (pre ++ le w n) e2) :
    FailsShort (readOne w >>= f) pre (le w n ++ e2) :=
  FailsShort.bind (readOne_parses w n pre h0 h hr) (readOne_short w _ _ (by simp)) h2

/-- `m` consumes `head` and then behaves like `tail`, also on files truncated inside `head`,
where it raises. -/
def Steps (m tail : Rd α) (pre head : Bytes) : Prop :=
  (∀ post, m ⟨pre ++ head ++ post, pre.length⟩ = tail ⟨pre ++ head ++ post, (pre ++ head).length⟩) ∧
  (∀ k, k < head.length → ∃ e, m ⟨pre ++ head.take k, pre.length⟩ = .error e)

theorem Steps.readOne {w n : Nat} {f : Nat → Rd α} {pre : Bytes} (h0 : 0 < w)
    (h : w < maxSize) (hr : n < 256 ^ w) : Steps (readOne w >>= f) (f n) pre (le w n) := by
  refine ⟨?_, ?_⟩
  · intro post
    rw [rd_bind_ok (readOne_parses w n pre h0 h hr post)]
  · intro k hk
    obtain ⟨e, he⟩ := readOne_short w pre (le w n) (by simp) k hk
    exact ⟨e, rd_bind_error he⟩

theorem Steps.trans {m t u : Rd α} {pre h1 h2 : Bytes} (a : Steps m t pre h1)
    (b : Steps t u (pre ++ h1) h2) : Steps m u pre (h1 ++ h2) := by
  refine ⟨?_, ?_⟩
  · intro post
    have e : pre ++ (h1 ++ h2) ++ post = pre ++ h1 ++ (h2 ++ post) := by simp
    rw [e, a.1, ← List.append_assoc, b.1]
    simp
  · intro k hk
    rcases take_append_cases h1 h2 k hk with ⟨h, e⟩ | ⟨j, hj, e⟩
    · rw [e]; exact a.2 k h
    · rw [e, ← List.append_assoc, a.1]
      exact b.2 j hj

theorem Steps.bind {m t : Rd α} {f : α → Rd β} {pre h : Bytes} (a : Steps m t pre h) :
    Steps (m >>= f) (t >>= f) pre h := by
  refine ⟨?_, ?_⟩
  · intro post
    rw [rd_bind, a.1, ← rd_bind]
  · intro k hk
    obtain ⟨e, he⟩ := a.2 k hk
    exact ⟨e, rd_bind_error he⟩

theorem Steps.congr {m t : Rd α} {pre h : Bytes} (a : Steps m t pre h) {m' t' : Rd α}
    (e1 : m' = m) (e2 : t = t') : Steps m' t' pre h := by subst e1 e2; exact a

theorem Steps.parses {m t : Rd α} {pre h e : Bytes} {a : α} (hs : Steps m t pre h)
    (hp : Parses t (pre ++ h) e a) : Parses m pre (h ++ e) a := by
  intro post
  have e1 : pre ++ (h ++ e) ++ post = pre ++ h ++ (e ++ post) := by simp
  have := hp post
  rw [e1, hs.1, ← List.append_assoc (pre ++ h), this]
  simp

theorem Steps.failsShort {m t : Rd α} {pre h e : Bytes} (hs : Steps m t pre h)
    (hp : FailsShort t (pre ++ h) e) : FailsShort m pre (h ++ e) := by
  intro k hk
  rcases take_append_cases h e k hk with ⟨hk', ek⟩ | ⟨j, hj, ek⟩
  · rw [ek]; exact hs.2 k hk'
  · rw [ek, ← List.append_assoc, hs.1]; exact hp j hj

theorem Steps.sameShort {m t : Rd α} {pre h e : Bytes} {a : α} (hs : Steps m t pre h)
    (hp : SameShort t (pre ++ h) e a) : SameShort m pre (h ++ e) a := by
  intro k hk
  rcases take_append_cases h e k hk with ⟨hk', ek⟩ | ⟨j, hj, ek⟩
  · rw [ek]; exact Or.inl (hs.2 k hk')
  · rw [ek, ← List.append_assoc, hs.1]
    rcases hp j hj with h | ⟨s', h⟩
    · exact Or.inl h
    · exact Or.inr ⟨s', h⟩

theorem readQuantizedHeader_steps (q : QArr F32) (hw : QWF q) (hf : QFits q) (pre : Bytes) :
    Steps readQuantizedHeader (readQuantizedTail (if q.pq.projection.isSome then 1 else 0)
      (if q.norms.isSome then 1 else 0) q.qlen q.pq.reconstructedLen q.pq.nCentroids
      q.codes.length) pre (qHead q) := by
  unfold readQuantizedHeader qHead
  have hb : ∀ b : Bool, (if b then 1 else 0) < 256 ^ 4 := by decide
  refine Steps.trans (Steps.readOne (by decide) (by decide) (hb _)) ?_
  refine Steps.trans (Steps.readOne (by decide) (by decide) (hb _)) ?_
  refine Steps.trans (Steps.readOne (by decide) (by decide) hf.qlen) ?_
  refine Steps.trans (Steps.readOne (by decide) (by decide) hf.recLen) ?_
  refine Steps.trans (Steps.readOne (by decide) (by decide) hf.cent) ?_
  refine Steps.trans (Steps.readOne (by decide) (by decide) hf.rows) ?_
  have hmod : q.pq.reconstructedLen % q.qlen = 0 := by
    unfold PQ.reconstructedLen; rw [hw.qlen]; exact Nat.mul_mod_right _ _
  refine Steps.congr (m := do
      let t ← readOne 4
      if t ≠ TypeId.u8.toNat then Rd.fail .formatError
      let t ← readOne 4
      if t ≠ TypeId.f32.toNat then Rd.fail .formatError
      readQuantizedTail (if q.pq.projection.isSome then 1 else 0)
        (if q.norms.isSome then 1 else 0) q.qlen q.pq.reconstructedLen q.pq.nCentroids
        q.codes.length) ?_ ?_ rfl
  · refine Steps.trans (Steps.readOne (by decide) (by decide) (by decide)) ?_
    rw [if_neg (by decide)]
    refine Steps.congr (Steps.readOne (by decide) (by decide) (by decide)) rfl ?_
    rw [if_neg (by decide)]
  · rw [if_neg (by have := hw.qpos; omega)]
    have hl : pyAssert (decide (q.pq.reconstructedLen % q.qlen = 0)) = .ok () :=
      pyAssert_true (by simpa using hmod)
    beta_reduce
    rw [hl]
    rfl

theorem optF32_length (o : Option (List F32)) :
    (optF32 o).length = match o with | some n => 4 * n.length | none => 0 := by
  cases o <;> simp [optF32]

theorem sq_size {p : Mat F32} {r : Nat} (hw : p.WF) (h1 : p.rows.length = r) (h2 : p.cols = r) :
    p.flat.length = r ^ 2 := by
  rw [hw.flat_length, Mat.size, h1, h2]; ring

theorem readProjection_parses (q : QArr F32) (hw : QWF q) (pre : Bytes)
    (hl : 4 * q.pq.reconstructedLen ^ 2 < maxSize) :
    Parses (readProjection (if q.pq.projection.isSome then 1 else 0) q.pq.reconstructedLen) pre
      (optF32 (q.pq.projection.map Mat.flat)) q.pq.projection := by
  unfold readProjection
  cases hp : q.pq.projection with
  | none => simp [optF32]; exact Parses.pure _ _
  | some p =>
    obtain ⟨h1, h2, h3⟩ := hw.proj p hp
    simp only [Option.isSome_some, if_true, Option.map_some, optF32]
    rw [if_pos (by decide)]
    refine Parses.bind_last (fromFileF32_parses p.flat _ _ (sq_size h1 h2 h3) hl) ?_
    refine Parses.bind_nil (Parses.lift (a := p) _ ?_) (Parses.pure _ _)
    rw [← h2]
    have : reshape2 4 p.rows.length p.rows.length p.flat = reshape2 4 p.rows.length p.cols p.flat := by
      rw [h3, h2]
    rw [this]
    exact reshape2_flat p h1 (arrayFits_mat (by rw [h2, h3]; exact shapeOk_sq hl))

theorem readProjection_short (q : QArr F32) (hw : QWF q) (pre : Bytes) :
    FailsShort (readProjection (if q.pq.projection.isSome then 1 else 0) q.pq.reconstructedLen) pre
      (optF32 (q.pq.projection.map Mat.flat)) := by
  unfold readProjection
  cases hp : q.pq.projection with
  | none => simp [optF32]; exact FailsShort.nil _ _
  | some p =>
    obtain ⟨h1, h2, h3⟩ := hw.proj p hp
    simp only [Option.isSome_some, if_true, Option.map_some, optF32]
    rw [if_pos (by decide)]
    refine fromFileF32_check_short _ _ _ (by rw [length_f32sLE, sq_size h1 h2 h3]) _ ?_
    intro xs s hx
    exact ⟨_, lift_bind_error (reshape2_short _ _ _ _ (by rw [← sq]; exact hx)) s⟩

theorem readProjection_eofIs (q : QArr F32) (hw : QWF q) :
    EofIs (readProjection (if q.pq.projection.isSome then 1 else 0) q.pq.reconstructedLen)
      q.pq.projection := by
  unfold readProjection
  cases hp : q.pq.projection with
  | none => simp; exact EofIs.pure _
  | some p =>
    obtain ⟨h1, h2, h3⟩ := hw.proj p hp
    simp only [Option.isSome_some, if_true]
    rw [if_pos (by decide)]
    by_cases h0 : q.pq.reconstructedLen ^ 2 = 0
    · rw [h0]
      refine EofIs.bind fromFileF32_zero_eofIs ?_
      refine EofIs.bind (EofIs.lift (a := p) ?_) (EofIs.pure _)
      have hf : p.flat = [] := by
        have := sq_size h1 h2 h3
        rw [h0] at this; simpa using this
      rw [← hf, ← h2]
      have : reshape2 4 p.rows.length p.rows.length p.flat = reshape2 4 p.rows.length p.cols p.flat := by
        rw [h3, h2]
      rw [this]
      exact reshape2_flat p h1 (arrayFits_mat (by rw [h2, h3]; exact shapeOk_sq (by rw [h0]; decide)))
    · refine (fromFileF32_check_eof _ h0 _ ?_).eofIs _
      intro xs s hx
      exact ⟨_, lift_bind_error (reshape2_short _ _ _ _ (by rw [← sq]; exact hx)) s⟩

theorem readProjection_stays (a b : Nat) : StaysEof (readProjection a b) := by
  unfold readProjection
  split
  · refine StaysEof.bind (fromFileF32_stays _) fun _ => ?_
    exact StaysEof.bind (StaysEof.lift _) fun _ => StaysEof.pure _
  · exact StaysEof.pure _

theorem readQNorms_stays (a b : Nat) : StaysEof (readQNorms a b) := by
  unfold readQNorms
  split
  · exact StaysEof.bind (fromFileF32_stays _) fun _ => StaysEof.pure _
  · exact StaysEof.pure _

theorem readQNorms_parses (q : QArr F32) (hw : QWF q) (pre : Bytes)
    (hl : q.norms.isSome → 4 * q.codes.length < maxSize) :
    Parses (readQNorms (if q.norms.isSome then 1 else 0) q.codes.length) pre
      (optF32 q.norms) q.norms := by
  unfold readQNorms
  cases hp : q.norms with
  | none => simp [optF32]; exact Parses.pure _ _
  | some n =>
    simp only [Option.isSome_some, if_true, optF32]
    rw [if_pos (by decide)]
    exact Parses.bind_last (fromFileF32_parses n _ _ (hw.norms n hp) (hl (by rw [hp]; rfl))) (Parses.pure _ _)

theorem readQNorms_weak (q : QArr F32) (hw : QWF q) (pre : Bytes)
    (hl : q.norms.isSome → 4 * q.codes.length < maxSize) :
    WeakShort (readQNorms (if q.norms.isSome then 1 else 0) q.codes.length) pre
      (optF32 q.norms) := by
  unfold readQNorms
  cases hp : q.norms with
  | none => simp [optF32]; exact WeakShort.nil _ _
  | some n =>
    simp only [Option.isSome_some, if_true, optF32]
    rw [if_pos (by decide)]
    exact WeakShort.bind_last (fromFileF32_parses n _ _ (hw.norms n hp) (hl (by rw [hp]; rfl)))
      (fromFileF32_weak _ _ _ (by rw [length_f32sLE, hw.norms n hp]) (hl (by rw [hp]; rfl))) (fun _ => StaysEof.pure _)

theorem readQNorms_eofIs (q : QArr F32) (hw : QWF q) (h0 : q.codes.length = 0) :
    EofIs (readQNorms (if q.norms.isSome then 1 else 0) q.codes.length) q.norms := by
  unfold readQNorms
  cases hp : q.norms with
  | none => simp; exact EofIs.pure _
  | some n =>
    simp only [Option.isSome_some, if_true]
    rw [if_pos (by decide), h0]
    have hn : n = [] := by
      have := hw.norms n hp
      rw [h0] at this; simpa using this
    subst hn
    exact EofIs.bind fromFileF32_zero_eofIs (EofIs.pure _)

theorem PQ_new_self (q : QArr F32) (hw : QWF q) :
    PQ.new q.pq.nCentroids q.pq.sub q.pq.quantizers q.pq.projection = .ok q.pq := by
  unfold PQ.new
  cases hp : q.pq.projection with
  | none => simp only; show Except.ok _ = _; congr 1; rw [← hp]
  | some p =>
    obtain ⟨h1, h2, h3⟩ := hw.proj p hp
    simp only
    have : pyAssert (decide (p.rows.length = q.pq.quantizers.length * q.pq.sub ∧
        q.pq.quantizers.length * q.pq.sub = p.cols)) = .ok () :=
      pyAssert_true (by simp only [decide_eq_true_eq]; exact ⟨h2, h3.symm⟩)
    rw [this, res_bind_ok]
    show Except.ok _ = _; congr 1; rw [← hp]

/-- Sizes that must be representable for reading to succeed; implied by a successful write. -/
structure QSizes (q : QArr F32) : Prop where
  sq : q.pq.projection.isSome → 4 * q.pq.reconstructedLen ^ 2 < maxSize
  quant : 4 * (q.pq.quantizers.length * q.pq.nCentroids * q.pq.sub) < maxSize
  rows : q.norms.isSome → 4 * q.codes.length < maxSize
  codes : q.codes.length * q.qlen < maxSize

theorem sub_eq (q : QArr F32) (hw : QWF q) : q.pq.reconstructedLen / q.qlen = q.pq.sub := by
  unfold PQ.reconstructedLen; rw [hw.qlen]
  exact Nat.mul_div_cancel_left _ (by rw [← hw.qlen]; exact hw.qpos)

theorem quant_flat_length (q : QArr F32) (hw : QWF q) :
    (q.pq.quantizers.map List.flatten).flatten.length
      = q.qlen * q.pq.nCentroids * q.pq.sub := by
  have hr : ∀ r ∈ q.pq.quantizers.map List.flatten, r.length = q.pq.nCentroids * q.pq.sub := by
    intro r hr
    obtain ⟨m, hm, rfl⟩ := List.mem_map.mp hr
    rw [length_flatten_const _ m (hw.subs m hm), hw.cents m hm]
  have := length_flatten_const _ _ hr
  rw [this, List.length_map, ← hw.qlen, Nat.mul_assoc]

theorem quant_reshape (q : QArr F32) (hw : QWF q) :
    reshape3 4 q.qlen q.pq.nCentroids q.pq.sub (q.pq.quantizers.map List.flatten).flatten
      = .ok q.pq.quantizers := by
  rw [hw.qlen]
  exact reshape3_flat _ _ _ hw.cents hw.subs (arrayFits_three.mpr hw.fits)

theorem codes_reshape (q : QArr F32) (hw : QWF q) :
    reshape2 1 q.codes.length q.qlen q.codes.flatten = .ok ⟨q.qlen, q.codes⟩ :=
  reshape2_flat ⟨q.qlen, q.codes⟩ hw.codes (by
    have h1 := hw.qpos
    have h2 := hw.codesFit
    simp only [arrayFits, List.map_cons, List.map_nil, List.prod_cons, List.prod_nil, Nat.mul_one, Nat.one_mul,
      decide_eq_true_eq, maxSize]
    rw [Nat.max_eq_right (a := 1) (b := q.qlen) h1]
    exact h2)

/-- The last part: codes. -/
def readCodes (pq : PQ F32) (n qlen : Nat) (norms : Option (List F32)) : Rd (QArr F32) := do
  let xs ← fromFileU8 (n * qlen)
  let m ← Rd.lift (reshape2 1 n qlen xs)
  return ⟨pq, qlen, m.rows, norms⟩

theorem readCodes_parses (q : QArr F32) (hw : QWF q) (hs : QSizes q) (pre : Bytes) :
    Parses (readCodes q.pq q.codes.length q.qlen q.norms) pre q.codes.flatten q := by
  unfold readCodes
  refine Parses.bind_last (fromFileU8_parses _ _ _ (length_flatten_const _ _ hw.codes) hs.codes) ?_
  exact Parses.bind_nil (Parses.lift _ (codes_reshape q hw)) (Parses.pure _ _)

theorem readCodes_tail (pq : PQ F32) (n qlen : Nat) (norms : Option (List F32)) (xs : Bytes)
    (s : RFile) (h : xs.length ≠ n * qlen) :
    ∃ e, (do
      let m ← Rd.lift (reshape2 1 n qlen xs)
      pure (QArr.mk pq qlen m.rows norms) : Rd (QArr F32)) s = .error e :=
  ⟨_, lift_bind_error (reshape2_short _ _ _ _ h) s⟩

theorem readCodes_short (q : QArr F32) (hw : QWF q) (pre : Bytes) (pq : PQ F32)
    (norms : Option (List F32)) :
    FailsShort (readCodes pq q.codes.length q.qlen norms) pre q.codes.flatten :=
  fromFileU8_check_short _ _ _ (length_flatten_const _ _ hw.codes) _ (readCodes_tail _ _ _ _)

theorem readCodes_eof (q : QArr F32) (h0 : q.codes.length * q.qlen ≠ 0) (pq : PQ F32)
    (norms : Option (List F32)) : FailsEof (readCodes pq q.codes.length q.qlen norms) :=
  fromFileU8_check_eof _ h0 _ (readCodes_tail _ _ _ _)

theorem readCodes_eofIs (q : QArr F32) (hw : QWF q) :
    EofIs (readCodes q.pq q.codes.length q.qlen q.norms) q := by
  by_cases h0 : q.codes.length * q.qlen = 0
  · unfold readCodes
    have hc : q.codes.flatten = [] := by
      have := length_flatten_const _ _ hw.codes
      rw [h0] at this; exact List.eq_nil_of_length_eq_zero this
    rw [h0]
    refine EofIs.bind fromFileU8_zero_eofIs ?_
    refine EofIs.bind (EofIs.lift (a := ⟨q.qlen, q.codes⟩) ?_) (EofIs.pure _)
    rw [← hc]; exact codes_reshape q hw
  · exact (readCodes_eof q h0 _ _).eofIs _

theorem readQuantized_eq : readQuantized = readQuantizedHeader >>= fun p =>
    readCodes p.1 p.2.1 p.2.2.1 p.2.2.2 := rfl

/-- Everything after the header fields. -/
theorem quantTail_parses (q : QArr F32) (hw : QWF q) (hs : QSizes q) (pre : Bytes)
    (hl : pre.length + padFloat32 pre.length < maxSize) :
    Parses (readQuantizedTail (if q.pq.projection.isSome then 1 else 0)
      (if q.norms.isSome then 1 else 0) q.qlen q.pq.reconstructedLen q.pq.nCentroids
      q.codes.length) pre (zeros (padFloat32 pre.length) ++
        (optF32 (q.pq.projection.map Mat.flat) ++
        (f32sLE (q.pq.quantizers.map List.flatten).flatten ++ optF32 q.norms)))
      (q.pq, q.codes.length, q.qlen, q.norms) := by
  unfold readQuantizedTail
  have hpd := (padFloat32_pos pre.length).2
  refine Parses.bind_nil (Parses.tell _) ?_
  refine Parses.bind (seekCur_parses _ _ _ (by simp) (by simp; omega)) ?_
  have hproj : Parses (readProjection (if q.pq.projection.isSome then 1 else 0)
      q.pq.reconstructedLen) (pre ++ zeros (padFloat32 pre.length))
      (optF32 (q.pq.projection.map Mat.flat)) q.pq.projection := by
    cases hp : q.pq.projection with
    | none => exact Parses.pure _ _
    | some p =>
      have := readProjection_parses q hw (pre ++ zeros (padFloat32 pre.length))
        (hs.sq (by rw [hp]; rfl))
      rw [hp] at this; exact this
  refine Parses.bind hproj ?_
  simp only [sub_eq q hw]
  refine Parses.bind (fromFileF32_parses _ _ _ (quant_flat_length q hw)
    (by rw [hw.qlen]; exact hs.quant)) ?_
  refine Parses.bind_nil (Parses.lift _ (quant_reshape q hw)) ?_
  refine Parses.bind_last (readQNorms_parses q hw _ hs.rows) ?_
  exact Parses.bind_nil (Parses.lift _ (PQ_new_self q hw)) (Parses.pure _ _)

theorem readQuantized_parses (q : QArr F32) (hw : QWF q) (hf : QFits q) (hs : QSizes q)
    (pre : Bytes) (hl : pre.length + 36 + padFloat32 (pre.length + 36) < maxSize) :
    Parses readQuantized pre (qBody (padFloat32 (pre.length + 36)) q) q := by
  have hlen : (pre ++ qHead q).length = pre.length + 36 := by simp [qHead]
  rw [readQuantized_eq]
  have h := (Steps.bind (f := fun p => readCodes p.1 p.2.1 p.2.2.1 p.2.2.2)
    (readQuantizedHeader_steps q hw hf pre))
  have ht := quantTail_parses q hw hs (pre ++ qHead q) (by rw [hlen]; omega)
  rw [hlen] at ht
  have := Steps.parses h (Parses.bind ht (readCodes_parses q hw hs _))
  refine this.congr ?_
  simp [qBody]

/-- A truncated quantized storage with at least one row is detected. -/
theorem readQuantized_short (q : QArr F32) (hw : QWF q) (hf : QFits q) (hs : QSizes q)
    (h0 : q.codes.length ≠ 0) (pre : Bytes) (hl : pre.length + 36 + padFloat32 (pre.length + 36) < maxSize) :
    FailsShort readQuantized pre (qBody (padFloat32 (pre.length + 36)) q) := by
  have hlen : (pre ++ qHead q).length = pre.length + 36 := by simp [qHead]
  rw [readQuantized_eq]
  unfold qBody
  refine Steps.failsShort (Steps.bind (f := fun p => readCodes p.1 p.2.1 p.2.2.1 p.2.2.2)
    (readQuantizedHeader_steps q hw hf pre)) ?_
  have hc0 : q.codes.length * q.qlen ≠ 0 := by
    have := hw.qpos
    exact Nat.mul_ne_zero h0 (by omega)
  unfold readQuantizedTail
  simp only [bind_assoc]
  have hpd := (padFloat32_pos (pre.length + 36)).2
  have feof : ∀ (n : Nat) (xs : List F32) (quantizers : List (List (List F32))) (norms : Option (List F32))
      (proj : Option (Mat F32)), FailsEof (Rd.lift (PQ.new q.pq.nCentroids n quantizers proj) >>= fun pq =>
        pure (pq, q.codes.length, q.qlen, norms) >>= fun p => readCodes p.1 p.2.1 p.2.2.1 p.2.2.2) := by
    intro n xs quantizers norms proj
    refine FailsEof.bind_stays (StaysEof.lift _) fun pq => ?_
    rw [pure_bind]
    exact readCodes_eof q hc0 _ _
  have feof2 : ∀ (n : Nat) (proj : Option (Mat F32)) (quantizers : List (List (List F32))), FailsEof
      (readQNorms (if q.norms.isSome then 1 else 0) q.codes.length >>= fun norms =>
        Rd.lift (PQ.new q.pq.nCentroids n quantizers proj) >>= fun pq =>
        pure (pq, q.codes.length, q.qlen, norms) >>= fun p => readCodes p.1 p.2.1 p.2.2.1 p.2.2.2) := by
    intro n proj quantizers
    exact FailsEof.bind_stays (readQNorms_stays _ _) fun norms => feof n [] quantizers norms proj
  have feof3 : ∀ (n m : Nat) (proj : Option (Mat F32)), FailsEof
      (fromFileF32 m >>= fun xs => Rd.lift (reshape3 4 q.qlen q.pq.nCentroids n xs) >>= fun quantizers =>
      readQNorms (if q.norms.isSome then 1 else 0) q.codes.length >>= fun norms =>
        Rd.lift (PQ.new q.pq.nCentroids n quantizers proj) >>= fun pq =>
        pure (pq, q.codes.length, q.qlen, norms) >>= fun p => readCodes p.1 p.2.1 p.2.2.1 p.2.2.2) := by
    intro n m proj
    refine FailsEof.bind_stays (fromFileF32_stays _) fun xs => ?_
    exact FailsEof.bind_stays (StaysEof.lift _) fun _ => feof2 _ _ _
  refine FailsShort.bind_nil (Parses.tell _) ?_
  rw [hlen]
  refine FailsShort.bind_weak (seekCur_parses _ _ _ (by simp) (by rw [List.length_append, hlen]; simp; omega))
    (seekCur_weak _ _ _ (by simp)) ?_ ?_
  · intro _
    exact FailsEof.bind_stays (readProjection_stays _ _) fun _ => feof3 _ _ _
  · have hproj : Parses (readProjection (if q.pq.projection.isSome then 1 else 0)
        q.pq.reconstructedLen) (pre ++ qHead q ++ zeros (padFloat32 (pre.length + 36)))
        (optF32 (q.pq.projection.map Mat.flat)) q.pq.projection := by
      cases hp : q.pq.projection with
      | none => exact Parses.pure _ _
      | some p =>
        have := readProjection_parses q hw (pre ++ qHead q ++ zeros (padFloat32 (pre.length + 36)))
          (hs.sq (by rw [hp]; rfl))
        rw [hp] at this; exact this
    refine FailsShort.bind hproj (readProjection_short q hw _) ?_
    simp only [sub_eq q hw]
    refine FailsShort.bind_weak (fromFileF32_parses _ _ _ (quant_flat_length q hw)
      (by rw [hw.qlen]; exact hs.quant)) (fromFileF32_weak _ _ _
        (by rw [length_f32sLE, quant_flat_length q hw]) (by rw [hw.qlen]; exact hs.quant)) ?_ ?_
    · intro xs
      exact FailsEof.bind_stays (StaysEof.lift _) fun _ => feof2 _ _ _
    · refine FailsShort.bind_nil (Parses.lift _ (quant_reshape q hw)) ?_
      refine FailsShort.bind_weak (readQNorms_parses q hw _ hs.rows) (readQNorms_weak q hw _ hs.rows)
        ?_ ?_
      · intro norms; exact feof _ [] _ _ _
      · refine FailsShort.bind_nil (Parses.lift _ (PQ_new_self q hw)) ?_
        rw [pure_bind]
        exact readCodes_short q hw _ _ _

/-- A truncated quantized storage is detected or unchanged. -/
theorem readQuantized_same (q : QArr F32) (hw : QWF q) (hf : QFits q) (hs : QSizes q)
    (pre : Bytes) (hl : pre.length + 36 + padFloat32 (pre.length + 36) < maxSize) :
    SameShort readQuantized pre (qBody (padFloat32 (pre.length + 36)) q) q := by
  by_cases h0 : q.codes.length = 0
  swap
  · exact (readQuantized_short q hw hf hs h0 pre hl).same q
  have hlen : (pre ++ qHead q).length = pre.length + 36 := by simp [qHead]
  rw [readQuantized_eq]
  unfold qBody
  refine Steps.sameShort (Steps.bind (f := fun p => readCodes p.1 p.2.1 p.2.2.1 p.2.2.2)
    (readQuantizedHeader_steps q hw hf pre)) ?_
  unfold readQuantizedTail
  simp only [bind_assoc]
  have hpd := (padFloat32_pos (pre.length + 36)).2
  have hn0 : optF32 q.norms = [] := by
    cases hn : q.norms with
    | none => rfl
    | some n =>
      have := hw.norms n hn
      rw [h0] at this
      have : n = [] := by simpa using this
      subst this; rfl
  have hc0 : q.codes.flatten = [] := by
    have : q.codes = [] := by simpa using h0
    rw [this]; rfl
  have e1 : EofIs (readQNorms (if q.norms.isSome then 1 else 0) q.codes.length >>= fun norms =>
        Rd.lift (PQ.new q.pq.nCentroids q.pq.sub q.pq.quantizers q.pq.projection) >>= fun pq =>
        pure (pq, q.codes.length, q.qlen, norms) >>= fun p => readCodes p.1 p.2.1 p.2.2.1 p.2.2.2) q := by
    refine EofIs.bind (readQNorms_eofIs q hw h0) ?_
    refine EofIs.bind (EofIs.lift (PQ_new_self q hw)) ?_
    rw [pure_bind]
    exact readCodes_eofIs q hw
  have e2 : EofIs (fromFileF32 (q.qlen * q.pq.nCentroids * q.pq.sub) >>= fun xs =>
      Rd.lift (reshape3 4 q.qlen q.pq.nCentroids q.pq.sub xs) >>= fun quantizers =>
      readQNorms (if q.norms.isSome then 1 else 0) q.codes.length >>= fun norms =>
        Rd.lift (PQ.new q.pq.nCentroids q.pq.sub quantizers q.pq.projection) >>= fun pq =>
        pure (pq, q.codes.length, q.qlen, norms) >>= fun p => readCodes p.1 p.2.1 p.2.2.1 p.2.2.2) q := by
    by_cases hz : q.qlen * q.pq.nCentroids * q.pq.sub = 0
    · rw [hz]
      refine EofIs.bind fromFileF32_zero_eofIs ?_
      have hf : (q.pq.quantizers.map List.flatten).flatten = [] := by
        have := quant_flat_length q hw
        rw [hz] at this; exact List.eq_nil_of_length_eq_zero this
      refine EofIs.bind (EofIs.lift (a := q.pq.quantizers) ?_) e1
      rw [← hf]; exact quant_reshape q hw
    · refine (fromFileF32_check_eof _ hz _ ?_).eofIs _
      intro xs s hx
      exact ⟨_, lift_bind_error (reshape3_short _ _ _ _ _ (by rw [← Nat.mul_assoc]; exact hx)) s⟩
  refine SameShort.bind_nil (Parses.tell _) ?_
  rw [hlen]
  refine SameShort.bind (seekCur_parses _ _ _ (by simp) (by rw [List.length_append, hlen]; simp; omega))
    (seekCur_same _ _ _ (by simp)) ?_ ?_
  · simp only [sub_eq q hw]
    exact EofIs.bind (readProjection_eofIs q hw) e2
  · have hproj : Parses (readProjection (if q.pq.projection.isSome then 1 else 0)
        q.pq.reconstructedLen) (pre ++ qHead q ++ zeros (padFloat32 (pre.length + 36)))
        (optF32 (q.pq.projection.map Mat.flat)) q.pq.projection := by
      cases hp : q.pq.projection with
      | none => exact Parses.pure _ _
      | some p =>
        have := readProjection_parses q hw (pre ++ qHead q ++ zeros (padFloat32 (pre.length + 36)))
          (hs.sq (by rw [hp]; rfl))
        rw [hp] at this; exact this
    simp only [sub_eq q hw]
    refine SameShort.bind hproj (readProjection_short q hw _).same_ e2 ?_
    rw [hn0, hc0]
    simp only [List.append_nil]
    refine (fromFileF32_check_short _ _ _ (by rw [length_f32sLE, quant_flat_length q hw]) _ ?_).same_
    intro xs s hx
    exact ⟨_, lift_bind_error (reshape3_short _ _ _ _ _ (by rw [← Nat.mul_assoc]; exact hx)) s⟩

theorem length_qBody (pad : Nat) (q : QArr F32) (hw : QWF q) : (qBody pad q).length = qLen pad q := by
  unfold qBody qLen
  have h1 : (qHead q).length = 36 := by simp [qHead]
  have h2 := quant_flat_length q hw
  have h3 := length_flatten_const _ _ hw.codes
  simp only [List.length_append, h1, length_zeros, optF32_length, length_f32sLE, h2, h3]
  rw [← hw.qlen]
  cases hp : q.pq.projection with
  | none => cases hn : q.norms <;> simp <;> omega
  | some p =>
    obtain ⟨h4, h5, h6⟩ := hw.proj p hp
    have := sq_size h4 h5 h6
    cases hn : q.norms <;> simp [this] <;> omega

theorem qSizes_of_len {q : QArr F32} {pad : Nat} (hw : QWF q) (h : qLen pad q < maxSize) :
    QSizes q := by
  unfold qLen at h
  have hc : q.codes.length ≤ q.codes.length * q.qlen := Nat.le_mul_of_pos_right _ hw.qpos
  refine ⟨?_, ?_, ?_, ?_⟩
  · intro hp
    obtain ⟨p, hp⟩ := Option.isSome_iff_exists.mp hp
    rw [hp] at h
    simp only at h
    omega
  · omega
  · intro hn
    obtain ⟨n, hn⟩ := Option.isSome_iff_exists.mp hn
    have := hw.norms n hn
    rw [hn] at h
    simp only at h
    omega
  · omega

/-! ### Norms -/

def normsBody (pad : Nat) (n : List F32) : Bytes :=
  packRaw [(8, n.length), (4, 10)] ++ (zeros pad ++ f32sLE n)

def normsLen (pad : Nat) (n : List F32) : Nat := 12 + pad + 4 * n.length

theorem length_normsBody (pad : Nat) (n : List F32) :
    (normsBody pad n).length = normsLen pad n := by
  simp [normsBody, normsLen, calcsize]; omega

theorem normsWrite_inv {n : List F32} {s s' : Bytes} {u : Unit} (h : writeNorms n s = (.ok u, s')) :
    s' = s ++ (chunkHead .ndNorms (normsLen (padFloat32 (s.length + 4)) n) ++
        normsBody (padFloat32 (s.length + 4)) n) ∧ n.length < 256 ^ 8 ∧
      normsLen (padFloat32 (s.length + 4)) n < 256 ^ 8 ∧ s'.length < maxSize := by
  unfold writeNorms writeNormsRaw at h
  obtain ⟨_, s1, h1, h⟩ := wr_bind_inv h
  obtain ⟨rfl, _, _⟩ := writeBinary_inv h1
  obtain ⟨p, s2, h2, h⟩ := wr_bind_inv h
  obtain ⟨rfl, rfl⟩ := wr_tell_inv h2
  have hpos : (s ++ packRaw [(4, ChunkId.ndNorms.toNat)]).length = s.length + 4 := by
    simp [calcsize]
  rw [hpos] at h
  obtain ⟨_, s3, h3, h⟩ := wr_bind_inv h
  obtain ⟨rfl, hr, _⟩ := writeBinary_inv h3
  obtain ⟨_, s4, h4, h⟩ := wr_bind_inv h
  obtain ⟨rfl, _⟩ := wr_bytes_inv h4
  obtain ⟨rfl, hl⟩ := wr_bytes_inv h
  simp only [calcsize, List.sum_cons, List.sum_nil, Nat.add_zero, Nat.reduceAdd] at hr hl ⊢
  refine ⟨?_, ?_, ?_, hl⟩
  · simp [chunkHead, packRaw, normsBody, normsLen, TypeId.toNat]
  · exact hr (8, n.length) (by simp)
  · exact hr (8, _) List.mem_cons_self

theorem readNorms_parses (n : List F32) (pre : Bytes) (hr : n.length < 256 ^ 8)
    (hm : 4 * n.length < maxSize) (hl : pre.length + 12 + padFloat32 (pre.length + 12) < maxSize) :
    Parses readNorms pre (normsBody (padFloat32 (pre.length + 12)) n) n := by
  unfold readNorms normsBody
  refine Parses.bind (readRequired_parses [8, 4] [(8, n.length), (4, 10)] pre rfl (by decide)
    (by decide) ?_) ?_
  · intro f hm
    simp only [List.mem_cons, List.not_mem_nil, or_false] at hm
    rcases hm with rfl | rfl
    · exact hr
    · decide
  · simp only [List.map_cons, List.map_nil]
    refine Parses.bind_nil (Parses.lift (a := TypeId.f32) _ rfl) ?_
    rw [if_neg (by decide)]
    refine Parses.bind_nil (Parses.tell _) ?_
    have hp : (pre ++ packRaw [(8, n.length), (4, 10)]).length = pre.length + 12 := by
      simp [calcsize]
    rw [hp]
    have hpd := (padFloat32_pos (pre.length + 12)).2
    refine Parses.bind (seekCur_parses _ _ _ (by simp) ?_) ?_
    · rw [List.length_append, hp]; simp; omega
    · exact fromFileF32_parses _ _ _ rfl hm

theorem readNorms_eof : FailsEof readNorms := (readRequired_eof _).bind

theorem f32sOf_take_prefix (n : List F32) (i : Nat) : f32sOf ((f32sLE n).take i) <+: n := by
  induction n generalizing i with
  | nil => simp [f32sLE, f32sOf]
  | cons x xs ih =>
    have e : f32sLE (x :: xs) = f32le x ++ f32sLE xs := rfl
    have hx : (f32le x).length = 4 := by simp [f32le]
    by_cases hi : i < 4
    · have : f32sOf ((f32sLE (x :: xs)).take i) = [] := by
        apply List.length_eq_zero_iff.mp
        rw [length_f32sOf, List.length_take]
        omega
      rw [this]; exact List.nil_prefix
    · rw [e, List.take_append, List.take_of_length_le (by omega), f32sOf_f32le_append, hx]
      exact List.cons_prefix_cons.mpr ⟨rfl, ih _⟩

/-- On a truncated norms chunk the reader raises or returns fewer norms (or the same, empty,
norms). -/
theorem readNorms_trunc (n : List F32) (pre : Bytes) (hr : n.length < 256 ^ 8)
    (hm : 4 * n.length < maxSize) (hl : pre.length + 12 + padFloat32 (pre.length + 12) < maxSize) (k : Nat)
    (hk : k < (normsBody (padFloat32 (pre.length + 12)) n).length) :
    (∃ e, readNorms ⟨pre ++ (normsBody (padFloat32 (pre.length + 12)) n).take k, pre.length⟩
      = .error e) ∨
    ∃ n' s', readNorms ⟨pre ++ (normsBody (padFloat32 (pre.length + 12)) n).take k, pre.length⟩
      = .ok (n', s') ∧ (n'.length < n.length ∨ (n' = n ∧ n = [])) ∧ n' <+: n := by
  unfold readNorms
  unfold normsBody at hk ⊢
  have hp : (pre ++ packRaw [(8, n.length), (4, 10)]).length = pre.length + 12 := by
    simp [calcsize]
  have hpd := (padFloat32_pos (pre.length + 12)).2
  have hpar := readRequired_parses [8, 4] [(8, n.length), (4, 10)] pre rfl (by decide)
    (by decide) (by
      intro f hm
      simp only [List.mem_cons, List.not_mem_nil, or_false] at hm
      rcases hm with rfl | rfl
      · exact hr
      · decide)
  rcases take_append_cases _ _ k hk with ⟨h, e⟩ | ⟨j, hj, e⟩
  · left
    rw [e]
    obtain ⟨er, her⟩ := readRequired_short [8, 4] pre (packRaw [(8, n.length), (4, 10)]) (by simp) k h
    exact ⟨er, rd_bind_error her⟩
  · rw [e, ← List.append_assoc, rd_bind_ok (hpar _)]
    simp only [List.map_cons, List.map_nil]
    rw [rd_bind_ok (m := Rd.lift (TypeId.fromNat 10)) (a := TypeId.f32) rfl]
    rw [if_neg (by decide), rd_bind_ok (rd_tell _)]
    simp only [hp]
    rcases take_append_cases _ _ j hj with ⟨h, e⟩ | ⟨i, hi, e⟩
    · rw [e]
      rcases seekCur_same (pre ++ packRaw [(8, n.length), (4, 10)])
        (zeros (padFloat32 (pre.length + 12))) (padFloat32 (pre.length + 12)) (by simp) j h with
        ⟨er, her⟩ | ⟨s', hs', hd, hps⟩
      · left
        rw [hp] at her
        exact ⟨er, rd_bind_error her⟩
      · right
        rw [hp] at hs'
        rw [rd_bind_ok hs', fromFileF32_eof _ _ hps hm]
        refine ⟨[], s', rfl, ?_, List.nil_prefix⟩
        cases n with
        | nil => right; exact ⟨rfl, rfl⟩
        | cons x xs => left; simp
    · rw [e]
      right
      have hpar2 := seekCur_parses (pre ++ packRaw [(8, n.length), (4, 10)])
        (zeros (padFloat32 (pre.length + 12))) (padFloat32 (pre.length + 12)) (by simp)
        (by rw [List.length_append, hp]; simp; omega) ((f32sLE n).take i)
      rw [hp] at hpar2
      rw [← List.append_assoc, rd_bind_ok hpar2]
      rw [fromFileF32_short _ _ _ _ (length_f32sLE n) hi hm]
      refine ⟨_, _, rfl, Or.inl ?_, f32sOf_take_prefix n i⟩
      rw [length_f32sOf]
      rw [length_f32sLE] at hi
      simp; omega

end FF
