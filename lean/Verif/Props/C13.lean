import Verif.Model.Endian
import Verif.Lemmas.Bytes
import Mathlib.Algebra.BigOperators.Group.Finset.Basic
import Mathlib.Algebra.BigOperators.Ring.Finset
import Mathlib.Data.List.Basic
import Mathlib.Tactic.Ring
/-! C13: arrays on disk are little-endian on every machine. -/

namespace FF

/-! ### Specification: the value of an item -/

/-- The byte order in which an array with this flag is stored on this machine. -/
def BoFlag.order (m : ByteOrder) : BoFlag → ByteOrder
  | .lt => .little
  | .gt => .big
  | .native => m
  | .na => .little

/-- The integer (bit pattern) an item stands for. -/
def itemValue (o : ByteOrder) (item : Bytes) : Nat :=
  match o with
  | .little => unle item
  | .big => unle item.reverse

def ArrData.items : ArrData → List Bytes
  | .flat is => is
  | .rows rs => rs.flatten

/-- The values of an array in row-major order. -/
def NpArr.values (m : ByteOrder) (a : NpArr) : List Nat :=
  a.data.items.map (itemValue (a.flag.order m))

/-- Every item has the width of the dtype; one-byte dtypes, and only those, have no byte order. -/
structure NpArr.WF (a : NpArr) : Prop where
  width : ∀ i ∈ a.data.items, i.length = a.width
  na : a.flag = .na → a.width = 1

theorem le_value_little {i : Bytes} {w : Nat} (h : i.length = w) :
    le w (itemValue .little i) = i := by subst h; exact le_unle i

theorem le_value_big {i : Bytes} {w : Nat} (h : i.length = w) :
    le w (itemValue .big i) = i.reverse := by
  subst h
  have := le_unle i.reverse
  rwa [List.length_reverse] at this

theorem flatten_le_little {w : Nat} {is : List Bytes} (h : ∀ i ∈ is, i.length = w) :
    ((is.map (itemValue .little)).map (le w)).flatten = is.flatten := by
  rw [List.map_map]
  congr 1
  conv_rhs => rw [← List.map_id is]
  exact List.map_congr_left fun i hi => le_value_little (h i hi)

theorem flatten_le_big {w : Nat} {is : List Bytes} (h : ∀ i ∈ is, i.length = w) :
    ((is.map (itemValue .big)).map (le w)).flatten = (byteswap is).flatten := by
  rw [List.map_map]
  congr 1
  exact List.map_congr_left fun i hi => le_value_big (h i hi)

/-- The bytes written are the little-endian encodings of the values in row-major order, on both
kinds of machine and for every byte-order flag; in particular they depend on the values only. -/
theorem C13_write (m : ByteOrder) (a : NpArr) (ha : a.WF) :
    serializeArrayAsLe m a = ((a.values m).map (le a.width)).flatten := by
  obtain ⟨w, flag, data⟩ := a
  have hw : ∀ i ∈ data.items, i.length = w := ha.width
  unfold serializeArrayAsLe NpArr.values
  have key : (((flag = .lt ∨ flag = .na) ∨ (flag = .native ∧ m = .little)) ∧
        flag.order m = .little) ∨
      (¬((flag = .lt ∨ flag = .na) ∨ (flag = .native ∧ m = .little)) ∧ flag.order m = .big) := by
    cases flag <;> cases m <;> simp [BoFlag.order]
  rcases key with ⟨hc, ho⟩ | ⟨hc, ho⟩
  · simp only [hc, if_true, ho]
    cases data with
    | flat is => exact (flatten_le_little hw).symm
    | rows rs => exact (flatten_le_little hw).symm
  · simp only [hc, if_false, ho]
    cases data with
    | flat is => exact (flatten_le_big hw).symm
    | rows rs =>
      refine Eq.trans ?_ (flatten_le_big hw).symm
      clear hw hc ho ha
      simp only [ArrData.items, tofile, byteswap]
      induction rs with
      | nil => rfl
      | cons r rs ih =>
        simp only [List.map_cons, List.flatten_cons, ih, List.map_append, List.flatten_append]

/-- Two arrays with the same dtype width and the same values give the same file, whatever their
byte order, dimensions and the machines they live on. -/
theorem C13_determined (m m' : ByteOrder) (a b : NpArr) (ha : a.WF) (hb : b.WF)
    (hw : a.width = b.width) (hv : a.values m = b.values m') :
    serializeArrayAsLe m a = serializeArrayAsLe m' b := by
  rw [C13_write m a ha, C13_write m' b hb, hw, hv]

theorem cutItems_flatten {w : Nat} (is : List Bytes) (rest : Bytes) (h : ∀ i ∈ is, i.length = w) :
    cutItems w is.length (is.flatten ++ rest) = is := by
  induction is with
  | nil => rfl
  | cons i is ih =>
    have hi := h i (List.mem_cons_self ..)
    simp only [List.length_cons, cutItems, List.flatten_cons, List.append_assoc]
    rw [if_pos (by rw [List.length_append, hi]; omega), List.take_left' hi, List.drop_left' hi,
      ih (fun j hj => h j (List.mem_cons_of_mem _ hj))]

/-- Reading little-endian encoded values back gives the same values on both kinds of machine,
whatever follows them in the file. -/
theorem C13_read (m : ByteOrder) (w : Nat) (vs : List Nat) (hv : ∀ v ∈ vs, v < 256 ^ w)
    (rest : Bytes) :
    (readArrayAsNative m w vs.length ((vs.map (le w)).flatten ++ rest)).values m = vs := by
  have hlen : ∀ i ∈ vs.map (le w), i.length = w := by
    intro i hi
    obtain ⟨v, _, rfl⟩ := List.mem_map.mp hi
    exact length_le w v
  have hcut := cutItems_flatten (vs.map (le w)) rest hlen
  rw [List.length_map] at hcut
  unfold readArrayAsNative NpArr.values
  simp only [hcut]
  have hlit : ∀ v ∈ vs, itemValue .little (le w v) = v := fun v h => unle_le _ _ (hv v h)
  cases m with
  | little =>
    simp only [reduceCtorEq, if_false, ArrData.items, List.map_map]
    have : BoFlag.order .little (if w = 1 then BoFlag.na else BoFlag.native) = .little := by
      split <;> rfl
    rw [this]
    conv_rhs => rw [← List.map_id vs]
    exact List.map_congr_left hlit
  | big =>
    simp only [if_true, ArrData.items, byteswap, List.map_map]
    conv_rhs => rw [← List.map_id vs]
    refine List.map_congr_left fun v h => ?_
    simp only [Function.comp]
    by_cases h1 : w = 1
    · subst h1
      rw [if_pos rfl]
      have : (le 1 v).reverse = le 1 v := rfl
      rw [this]; exact hlit v h
    · rw [if_neg h1]
      show unle (le w v).reverse.reverse = v
      rw [List.reverse_reverse]; exact unle_le _ _ (hv v h)

/-- Writing on one machine and reading on any other preserves the values. -/
theorem C13_round_trip (m m' : ByteOrder) (a : NpArr) (ha : a.WF) (rest : Bytes) :
    (readArrayAsNative m' a.width (a.values m).length
      (serializeArrayAsLe m a ++ rest)).values m' = a.values m := by
  rw [C13_write m a ha]
  refine C13_read m' a.width _ ?_ rest
  intro v hv
  obtain ⟨i, hi, rfl⟩ := List.mem_map.mp hv
  have hl := ha.width i hi
  cases (a.flag.order m) with
  | little => show unle i < _; rw [← hl]; exact unle_lt i
  | big => show unle i.reverse < _; rw [← hl, ← List.length_reverse]; exact unle_lt _

/-- The writers of the rest of the model are the little-endian case: `f32sLE` is what
`_serialize_array_as_le` writes for an array with these values on any machine. -/
theorem C13_model (m : ByteOrder) (a : NpArr) (ha : a.WF) (hw : a.width = 4) (xs : List F32)
    (hx : a.values m = xs.map UInt32.toNat) : serializeArrayAsLe m a = f32sLE xs := by
  rw [C13_write m a ha, hx, hw]
  clear hx
  induction xs with
  | nil => rfl
  | cons x xs ih => simp only [List.map_cons, List.flatten_cons, ih, f32sLE, f32le]

/-! ### Digits -/

theorem le_getElem? (w n i : Nat) (hi : i < w) : (le w n)[i]? = some (UInt8.ofNat (n / 256 ^ i)) := by
  induction w generalizing n i with
  | zero => omega
  | succ w ih =>
    cases i with
    | zero => simp [le]
    | succ i =>
      rw [le, List.getElem?_cons_succ, ih _ _ (by omega), Nat.div_div_eq_div_mul, ← Nat.pow_succ']

/-- Byte `i` of item `k` is digit `i` of value `k` to the base 256, counted from the least significant digit. -/
theorem C13_digits (m : ByteOrder) (a : NpArr) (ha : a.WF) :
    (serializeArrayAsLe m a).length = (a.values m).length * a.width ∧
    ∀ (k i v : Nat), (a.values m)[k]? = some v → i < a.width →
      (serializeArrayAsLe m a)[k * a.width + i]? = some (UInt8.ofNat (v / 256 ^ i)) := by
  rw [C13_write m a ha]
  generalize a.values m = vs
  generalize a.width = w
  induction vs with
  | nil => exact ⟨by simp, fun k i v h => by cases h⟩
  | cons x vs ih =>
    rw [List.map_cons, List.flatten_cons]
    refine ⟨by rw [List.length_append, ih.1, length_le, List.length_cons]; ring, fun k i v hk hi => ?_⟩
    cases k with
    | zero =>
      cases hk
      rw [List.getElem?_append_left (by rw [length_le]; omega), Nat.zero_mul, Nat.zero_add, le_getElem? _ _ _ hi]
    | succ k =>
      rw [List.getElem?_append_right (by rw [length_le, Nat.succ_mul]; omega), length_le,
        show (k + 1) * w + i - w = k * w + i by rw [Nat.succ_mul]; omega]
      exact ih.2 k i v hk hi

/-- What values are: the first byte of an item counts least on little-endian machines, the last on others. -/
theorem C13_value (item : Bytes) :
    itemValue .little item = ∑ i ∈ Finset.range item.length, (item.getD i 0).toNat * 256 ^ i ∧
    itemValue .big item =
      ∑ i ∈ Finset.range item.length, (item.getD (item.length - 1 - i) 0).toNat * 256 ^ i := by
  have key : ∀ bs : Bytes, unle bs = ∑ i ∈ Finset.range bs.length, (bs.getD i 0).toNat * 256 ^ i := by
    intro bs
    induction bs with
    | nil => rfl
    | cons b bs ih =>
      rw [unle, List.length_cons, Finset.sum_range_succ', ih, Finset.mul_sum, Nat.add_comm]
      congr 1
      · refine Finset.sum_congr rfl fun i _ => ?_
        rw [List.getD_cons_succ]
        ring
      · simp
  refine ⟨key item, ?_⟩
  show unle item.reverse = _
  rw [key, List.length_reverse]
  refine Finset.sum_congr rfl fun i hi => ?_
  have hi := Finset.mem_range.mp hi
  rw [List.getD_eq_getElem?_getD, List.getD_eq_getElem?_getD, List.getElem?_reverse hi]

example : itemValue .little [1, 2] = 513 ∧ itemValue .big [1, 2] = 258 := by decide

/-- A big-endian 2-d array on a little-endian machine and the native array of a big-endian
machine: same values, same file, although the memory differs. -/
example : ∃ a b : NpArr, a.WF ∧ b.WF ∧ a ≠ b ∧ a.values .little = b.values .big ∧
    a.values .little = [1, 0x3F800000] ∧ serializeArrayAsLe .little a = [1, 0, 0, 0, 0, 0, 128, 63]
    ∧ serializeArrayAsLe .big b = [1, 0, 0, 0, 0, 0, 128, 63] := by
  refine ⟨⟨4, .gt, .rows [[[0, 0, 0, 1]], [[63, 128, 0, 0]]]⟩,
    ⟨4, .native, .flat [[0, 0, 0, 1], [63, 128, 0, 0]]⟩, ⟨by decide, by decide⟩,
    ⟨by decide, by decide⟩, by decide, by decide, by decide, by decide, by decide⟩

end FF
