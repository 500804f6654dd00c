import Verif.Lemmas.Index
import Verif.Spec.Quant
import Verif.Spec.Built
/-! Lemmas on quantized storages. -/

namespace FF

section
variable {K : Type} [NumOps K]

theorem flatten_const_getElem? {α : Type} {s : Nat} {ps : List (List α)}
    (h : ∀ p ∈ ps, p.length = s) {j t : Nat} {p : List α} (hj : ps[j]? = some p) (ht : t < s) :
    ps.flatten[j * s + t]? = p[t]? := by
  induction ps generalizing j with
  | nil => cases hj
  | cons a ps ih =>
    have ha := h a (by simp)
    cases j with
    | zero =>
      cases hj
      rw [List.flatten_cons, Nat.zero_mul, Nat.zero_add, List.getElem?_append_left (by omega)]
    | succ j =>
      rw [List.flatten_cons, List.getElem?_append_right (by rw [ha, Nat.succ_mul]; omega), ha,
        show (j + 1) * s + t - s = j * s + t by rw [Nat.succ_mul]; omega]
      exact ih (fun p hp => h p (List.mem_cons_of_mem _ hp)) hj

theorem flatten_const_length {α : Type} {s : Nat} {ps : List (List α)}
    (h : ∀ p ∈ ps, p.length = s) : ps.flatten.length = ps.length * s := by
  induction ps with
  | nil => simp
  | cons a ps ih =>
    rw [List.flatten_cons, List.length_append, h a (by simp),
      ih fun p hp => h p (List.mem_cons_of_mem _ hp), List.length_cons, Nat.succ_mul]
    omega

omit [NumOps K] in
theorem isConcat_unique {pq : PQ K} {codes : List UInt8} {u u' : List K}
    (h : IsConcat pq codes u) (h' : IsConcat pq codes u') : u = u' := by
  refine List.ext_getElem? fun k => ?_
  by_cases hk : k < pq.quantizers.length * pq.sub
  · have hs : 0 < pq.sub := by
      rcases Nat.eq_zero_or_pos pq.sub with h0 | h0
      · rw [h0] at hk; simp at hk
      · exact h0
    have hj : k / pq.sub < pq.quantizers.length := Nat.div_lt_of_lt_mul (by rwa [mul_comm])
    have hq := List.getElem?_eq_getElem hj
    obtain ⟨c, cent, h1, h2, h3⟩ := h.2 _ _ hq
    obtain ⟨c', cent', h1', h2', h3'⟩ := h'.2 _ _ hq
    rw [h1] at h1'; cases h1'
    rw [h2] at h2'; cases h2'
    have ht := Nat.mod_lt k hs
    have e : k / pq.sub * pq.sub + k % pq.sub = k := by rw [mul_comm]; exact Nat.div_add_mod k _
    have a := h3 _ ht
    have b := h3' _ ht
    rw [e] at a b
    rw [a, b]
  · rw [List.getElem?_eq_none (by rw [h.1]; omega), List.getElem?_eq_none (by rw [h'.1]; omega)]

theorem isRow_unique {q : QArr K} {i : Nat} {v v' : List K} (h : IsRow q i v) (h' : IsRow q i v') :
    v = v' := by
  obtain ⟨codes, u, w, h1, h2, h3, h4⟩ := h
  obtain ⟨codes', u', w', h1', h2', h3', h4'⟩ := h'
  rw [h1] at h1'; cases h1'
  cases isConcat_unique h2 h2'
  have hw : w = w' := by
    unfold IsProjected at h3 h3'
    cases hp : q.pq.projection with
    | none => rw [hp] at h3 h3'; exact h3.trans h3'.symm
    | some p =>
      rw [hp] at h3 h3'
      refine List.ext_getElem? fun k => ?_
      by_cases hk : k < p.rows.length
      · rw [h3.2 k _ (List.getElem?_eq_getElem hk), h3'.2 k _ (List.getElem?_eq_getElem hk)]
      · rw [List.getElem?_eq_none (by rw [h3.1]; omega),
          List.getElem?_eq_none (by rw [h3'.1]; omega)]
  subst hw
  unfold IsScaled at h4 h4'
  cases hn : q.norms with
  | none => rw [hn] at h4 h4'; exact h4.trans h4'.symm
  | some ns =>
    rw [hn] at h4 h4'
    obtain ⟨n, a1, a2, a3⟩ := h4
    obtain ⟨n', b1, b2, b3⟩ := h4'
    rw [a1] at b1; cases b1
    refine List.ext_getElem? fun k => ?_
    by_cases hk : k < w.length
    · rw [a3 k _ (List.getElem?_eq_getElem hk), b3 k _ (List.getElem?_eq_getElem hk)]
    · rw [List.getElem?_eq_none (by rw [a2]; omega), List.getElem?_eq_none (by rw [b2]; omega)]

/-- What `reconstruct` computes. -/
theorem reconstruct_ok {pq : PQ K} {codes : List UInt8} {w : List K} :
    pq.reconstruct codes = .ok w ↔ codes.length = pq.quantizers.length ∧ ∃ parts,
      List.Forall₂ (fun (qc : List (List K) × UInt8) p => qc.1[qc.2.toNat]? = some p)
        (pq.quantizers.zip codes) parts ∧
      w = match pq.projection with
        | none => parts.flatten
        | some p => projectRow p parts.flatten := by
  unfold PQ.reconstruct
  by_cases hl : codes.length = pq.quantizers.length
  · rw [if_neg (by omega)]
    have e : ∀ parts, mapRes (fun qc : List (List K) × UInt8 => npGet qc.1 (qc.2.toNat : Int))
        (pq.quantizers.zip codes) = .ok parts ↔
        List.Forall₂ (fun (qc : List (List K) × UInt8) p => qc.1[qc.2.toNat]? = some p)
        (pq.quantizers.zip codes) parts := by
      intro parts
      rw [mapRes_ok]
      constructor
      · exact List.Forall₂.imp fun _ _ h => npGet_nat.mp h
      · exact List.Forall₂.imp fun _ _ h => npGet_nat.mpr h
    show (mapRes _ _ >>= _) = _ ↔ _
    constructor
    · intro h
      obtain ⟨parts, h1, h2⟩ := res_bind_inv h
      refine ⟨hl, parts, (e parts).mp h1, ?_⟩
      cases hp : pq.projection with
      | none => rw [hp] at h2; cases h2; rfl
      | some p => rw [hp] at h2; cases h2; rfl
    · rintro ⟨_, parts, h1, rfl⟩
      rw [(e parts).mpr h1]
      cases pq.projection <;> rfl
  · rw [if_pos hl]
    constructor
    · intro h; cases h
    · intro h; exact absurd h.1 hl

theorem reconstruct_err {pq : PQ K} {codes : List UInt8} {e : PyErr}
    (h : pq.reconstruct codes = .error e) : e = .indexError := by
  unfold PQ.reconstruct at h
  by_cases hl : codes.length ≠ pq.quantizers.length
  · rw [if_pos hl] at h; cases h; rfl
  · rw [if_neg hl] at h
    cases hm : mapRes (fun qc : List (List K) × UInt8 => npGet qc.1 (qc.2.toNat : Int))
      (pq.quantizers.zip codes) with
    | error e' =>
      obtain ⟨x, _, hx⟩ := mapRes_err hm
      change (mapRes _ _ >>= _) = _ at h
      rw [hm] at h
      cases h
      exact (npGet_err hx).1
    | ok parts =>
      change (mapRes _ _ >>= _) = _ at h
      rw [hm] at h
      cases hp : pq.projection <;> rw [hp] at h <;> cases h

omit [NumOps K] in
theorem forall₂_zip_parts {pq : PQ K} {codes : List UInt8} {parts : List (List K)}
    (hl : codes.length = pq.quantizers.length)
    (h : List.Forall₂ (fun (qc : List (List K) × UInt8) p => qc.1[qc.2.toNat]? = some p)
        (pq.quantizers.zip codes) parts) {j : Nat} {qs : List (List K)}
    (hj : pq.quantizers[j]? = some qs) :
    ∃ c p, codes[j]? = some c ∧ parts[j]? = some p ∧ qs[c.toNat]? = some p := by
  have hjl := (List.getElem?_eq_some_iff.mp hj).1
  have hc := List.getElem?_eq_getElem (l := codes) (i := j) (by omega)
  have hz : (pq.quantizers.zip codes)[j]? = some (qs, codes[j]'(by omega)) := by
    rw [List.getElem?_zip_eq_some]; exact ⟨hj, hc⟩
  have hzl := (List.getElem?_eq_some_iff.mp hz).1
  have hpl : j < parts.length := by rw [← h.length_eq]; exact hzl
  refine ⟨_, _, hc, List.getElem?_eq_getElem hpl, ?_⟩
  have := (List.forall₂_iff_get.mp h).2 j hzl hpl
  have hzg := (List.getElem?_eq_some_iff.mp hz).2
  rw [List.get_eq_getElem, List.get_eq_getElem, hzg] at this
  exact this

/-- `reconstruct` gives the projected concatenation of the centroids. -/
theorem reconstruct_spec {q : QArr K} (hq : QWF q) {codes : List UInt8} (hc : codes ∈ q.codes)
    {w : List K} : q.pq.reconstruct codes = .ok w ↔
      ∃ u, IsConcat q.pq codes u ∧ IsProjected q.pq.projection u w := by
  have hl : codes.length = q.pq.quantizers.length := by rw [hq.codes codes hc, hq.qlen]
  rw [reconstruct_ok]
  have proj : ∀ u, IsProjected q.pq.projection u w ↔
      w = match q.pq.projection with
        | none => u
        | some p => projectRow p u := by
    intro u
    unfold IsProjected
    cases q.pq.projection with
    | none => rfl
    | some p =>
      simp only [projectRow]
      constructor
      · rintro ⟨h1, h2⟩
        refine List.ext_getElem? fun k => ?_
        by_cases hk : k < p.rows.length
        · rw [h2 k _ (List.getElem?_eq_getElem hk), List.getElem?_map,
            List.getElem?_eq_getElem hk]; rfl
        · rw [List.getElem?_eq_none (by omega), List.getElem?_eq_none (by simp; omega)]
      · rintro rfl
        exact ⟨by simp, fun r row hr => by rw [List.getElem?_map, hr]; rfl⟩
  constructor
  · rintro ⟨_, parts, h1, h2⟩
    have hpart : ∀ p ∈ parts, p.length = q.pq.sub := by
      intro p hp
      obtain ⟨j, hj, rfl⟩ := List.getElem_of_mem hp
      have hzl : j < (q.pq.quantizers.zip codes).length := by rw [h1.length_eq]; exact hj
      rw [List.length_zip] at hzl
      obtain ⟨c, p', _, hp', hq'⟩ := forall₂_zip_parts hl h1
        (List.getElem?_eq_getElem (l := q.pq.quantizers) (i := j) (by omega))
      rw [List.getElem?_eq_getElem hj] at hp'
      cases hp'
      obtain ⟨hh, he⟩ := List.getElem?_eq_some_iff.mp hq'
      rw [← he]
      exact hq.subs _ (List.getElem_mem _) _ (List.getElem_mem _)
    have hplen : parts.length = q.pq.quantizers.length := by
      rw [← h1.length_eq, List.length_zip]; omega
    refine ⟨parts.flatten, ⟨?_, ?_⟩, (proj _).mpr h2⟩
    · rw [flatten_const_length hpart, hplen]
    · intro j qs hj
      obtain ⟨c, p, hcj, hpj, hqc⟩ := forall₂_zip_parts hl h1 hj
      exact ⟨c, p, hcj, hqc, fun t ht => flatten_const_getElem? hpart hpj ht⟩
  · rintro ⟨u, hu, hw⟩
    have hsel : ∀ qc ∈ q.pq.quantizers.zip codes, ∃ p, qc.1[qc.2.toNat]? = some p := by
      intro qc hqc
      obtain ⟨j, hj, rfl⟩ := List.getElem_of_mem hqc
      rw [List.length_zip] at hj
      obtain ⟨c, cent, h1, h2, _⟩ := hu.2 j _ (List.getElem?_eq_getElem (by omega))
      rw [List.getElem?_eq_getElem (by omega)] at h1
      cases h1
      rw [List.getElem_zip]
      exact ⟨cent, h2⟩
    have hparts : ∃ parts, List.Forall₂
        (fun (qc : List (List K) × UInt8) p => qc.1[qc.2.toNat]? = some p)
        (q.pq.quantizers.zip codes) parts := by
      generalize q.pq.quantizers.zip codes = z at hsel
      induction z with
      | nil => exact ⟨[], .nil⟩
      | cons x z ih =>
        obtain ⟨p, hp⟩ := hsel x (by simp)
        obtain ⟨ps, hps⟩ := ih fun y hy => hsel y (List.mem_cons_of_mem _ hy)
        exact ⟨p :: ps, .cons hp hps⟩
    obtain ⟨parts, h1⟩ := hparts
    refine ⟨hl, parts, h1, ?_⟩
    have hpart : ∀ p ∈ parts, p.length = q.pq.sub := by
      intro p hp
      obtain ⟨j, hj, rfl⟩ := List.getElem_of_mem hp
      have hzl : j < (q.pq.quantizers.zip codes).length := by rw [h1.length_eq]; exact hj
      rw [List.length_zip] at hzl
      obtain ⟨c, p', _, hp', hq'⟩ := forall₂_zip_parts hl h1
        (List.getElem?_eq_getElem (l := q.pq.quantizers) (i := j) (by omega))
      rw [List.getElem?_eq_getElem hj] at hp'
      cases hp'
      obtain ⟨hh, he⟩ := List.getElem?_eq_some_iff.mp hq'
      rw [← he]
      exact hq.subs _ (List.getElem_mem _) _ (List.getElem_mem _)
    have hplen : parts.length = q.pq.quantizers.length := by
      rw [← h1.length_eq, List.length_zip]; omega
    have : IsConcat q.pq codes parts.flatten := by
      refine ⟨by rw [flatten_const_length hpart, hplen], fun j qs hj => ?_⟩
      obtain ⟨c, p, hcj, hpj, hqc⟩ := forall₂_zip_parts hl h1 hj
      exact ⟨c, p, hcj, hqc, fun t ht => flatten_const_getElem? hpart hpj ht⟩
    rw [← isConcat_unique hu this]
    exact (proj u).mp hw

theorem isScaled_iff {norms : Option (List K)} {i : Nat} {w v : List K} :
    IsScaled norms i w v ↔ match norms with
      | none => v = w
      | some ns => ∃ n, ns[i]? = some n ∧ v = scale n w := by
  unfold IsScaled
  cases norms with
  | none => rfl
  | some ns =>
    simp only
    refine exists_congr fun n => and_congr_right fun _ => ?_
    unfold scale
    constructor
    · rintro ⟨h1, h2⟩
      refine List.ext_getElem? fun k => ?_
      by_cases hk : k < w.length
      · rw [h2 k _ (List.getElem?_eq_getElem hk), List.getElem?_map, List.getElem?_eq_getElem hk]
        rfl
      · rw [List.getElem?_eq_none (by omega), List.getElem?_eq_none (by simp; omega)]
    · rintro rfl
      exact ⟨by simp, fun t x hx => by rw [List.getElem?_map, hx]; rfl⟩

/-- Integer indexing. -/
theorem qGetOne_ok {q : QArr K} (hq : QWF q) {i : Int} {v : List K} :
    q.getOne i = .ok v ↔ ∃ j, npIndex q.codes.length i = .ok j ∧ IsRow q j v := by
  constructor
  · intro h
    unfold QArr.getOne at h
    obtain ⟨codes, h1, h⟩ := res_bind_inv h
    obtain ⟨w, h2, h⟩ := res_bind_inv h
    obtain ⟨j, hj, hcj⟩ := npGet_ok.mp h1
    refine ⟨j, hj, codes, ?_⟩
    obtain ⟨u, hu, hw⟩ := (reconstruct_spec hq (List.mem_of_getElem? hcj)).mp h2
    refine ⟨u, w, hcj, hu, hw, isScaled_iff.mpr ?_⟩
    cases hn : q.norms with
    | none => rw [hn] at h; cases h; rfl
    | some ns =>
      rw [hn] at h
      obtain ⟨n, h3, h⟩ := res_bind_inv h
      cases h
      obtain ⟨j', hj', hn'⟩ := npGet_ok.mp h3
      rw [hq.norms ns hn, hj] at hj'
      cases hj'
      exact ⟨n, hn', rfl⟩
  · rintro ⟨j, hj, codes, u, w, hcj, hu, hw, hs⟩
    unfold QArr.getOne
    rw [npGet_of hj hcj]
    show (q.pq.reconstruct codes >>= _) = _
    rw [(reconstruct_spec hq (List.mem_of_getElem? hcj)).mpr ⟨u, hu, hw⟩]
    rw [isScaled_iff] at hs
    cases hn : q.norms with
    | none => rw [hn] at hs; cases hs; rfl
    | some ns =>
      rw [hn] at hs
      obtain ⟨n, hn', rfl⟩ := hs
      show (npGet ns i >>= _) = _
      rw [npGet_of (j := j) (by rw [hq.norms ns hn]; exact hj) hn']
      rfl

theorem qGetOne_err {q : QArr K} {i : Int} {e : PyErr} (h : q.getOne i = .error e) :
    e = .indexError := by
  unfold QArr.getOne at h
  cases h1 : npGet q.codes i with
  | error e' => rw [h1] at h; cases h; exact (npGet_err h1).1
  | ok codes =>
    rw [h1] at h
    change (q.pq.reconstruct codes >>= _) = _ at h
    cases h2 : q.pq.reconstruct codes with
    | error e' => rw [h2] at h; cases h; exact reconstruct_err h2
    | ok w =>
      rw [h2] at h
      cases hn : q.norms with
      | none => rw [hn] at h; cases h
      | some ns =>
        rw [hn] at h
        change (npGet ns i >>= _) = _ at h
        cases h3 : npGet ns i with
        | error e' => rw [h3] at h; cases h; exact (npGet_err h3).1
        | ok n => rw [h3] at h; cases h

theorem bothErr {α : Type} {a b : Res α} (ha : ∀ e, a = .error e → e = .indexError)
    (hb : ∀ e, b = .error e → e = .indexError) (h : ∀ x, a = .ok x ↔ b = .ok x) : a = b := by
  cases a with
  | error e =>
    cases b with
    | error e' => rw [ha e rfl, hb e' rfl]
    | ok y => exact absurd ((h y).mpr rfl) (by simp)
  | ok x => rw [(h x).mp rfl]

theorem qGetOne_iff {q : QArr K} {i : Int} {v : List K} :
    q.getOne i = .ok v ↔ ∃ c w, npGet q.codes i = .ok c ∧ q.pq.reconstruct c = .ok w ∧
      (match q.norms with
        | none => v = w
        | some ns => ∃ n, npGet ns i = .ok n ∧ v = scale n w) := by
  unfold QArr.getOne
  constructor
  · intro h
    obtain ⟨c, h1, h⟩ := res_bind_inv h
    obtain ⟨w, h2, h⟩ := res_bind_inv h
    refine ⟨c, w, h1, h2, ?_⟩
    cases hn : q.norms with
    | none => rw [hn] at h; cases h; rfl
    | some ns =>
      rw [hn] at h
      obtain ⟨n, h3, h⟩ := res_bind_inv h
      cases h
      exact ⟨n, h3, rfl⟩
  · rintro ⟨c, w, h1, h2, h3⟩
    rw [h1]
    show (q.pq.reconstruct c >>= _) = _
    rw [h2]
    cases hn : q.norms with
    | none => rw [hn] at h3; cases h3; rfl
    | some ns =>
      rw [hn] at h3
      obtain ⟨n, h3, rfl⟩ := h3
      show (npGet ns i >>= _) = _
      rw [h3]; rfl

theorem qRows_iff {q : QArr K} {js : List Int} {vs : List (List K)} :
    (∃ cs out,
      List.Forall₂ (fun j c => npGet q.codes j = .ok c) js cs ∧
      List.Forall₂ (fun c w => q.pq.reconstruct c = .ok w) cs out ∧
      (match q.norms with
        | none => vs = out
        | some ns => ∃ nv, List.Forall₂ (fun j n => npGet ns j = .ok n) js nv ∧
            vs = List.zipWith scale nv out)) ↔
    List.Forall₂ (fun j v => q.getOne j = .ok v) js vs := by
  induction js generalizing vs with
  | nil =>
    constructor
    · rintro ⟨cs, out, h1, h2, h3⟩
      cases h1; cases h2
      cases hn : q.norms with
      | none => rw [hn] at h3; cases h3; exact .nil
      | some ns =>
        rw [hn] at h3
        obtain ⟨nv, h3, rfl⟩ := h3
        cases h3; exact .nil
    · intro h
      cases h
      refine ⟨[], [], .nil, .nil, ?_⟩
      cases hn : q.norms with
      | none => rfl
      | some ns => exact ⟨[], .nil, rfl⟩
  | cons j js ih =>
    constructor
    · rintro ⟨cs, out, h1, h2, h3⟩
      cases h1 with
      | cons a1 b1 =>
        cases h2 with
        | cons a2 b2 =>
          cases hn : q.norms with
          | none =>
            rw [hn] at h3 ih; cases h3
            refine .cons (qGetOne_iff.mpr ⟨_, _, a1, a2, by rw [hn]⟩) ?_
            exact ih.mp ⟨_, _, b1, b2, rfl⟩
          | some ns =>
            rw [hn] at h3 ih
            obtain ⟨nv, h3, rfl⟩ := h3
            cases h3 with
            | cons a3 b3 =>
              refine .cons (qGetOne_iff.mpr ⟨_, _, a1, a2, by rw [hn]; exact ⟨_, a3, rfl⟩⟩) ?_
              exact ih.mp ⟨_, _, b1, b2, _, b3, rfl⟩
    · intro h
      cases h with
      | cons a b =>
        obtain ⟨cs, out, h1, h2, h3⟩ := ih.mpr b
        obtain ⟨c, w, k1, k2, k3⟩ := qGetOne_iff.mp a
        refine ⟨c :: cs, w :: out, .cons k1 h1, .cons k2 h2, ?_⟩
        cases hn : q.norms with
        | none => rw [hn] at h3 k3; simp only at h3 k3 ⊢; rw [h3, k3]
        | some ns =>
          rw [hn] at h3 k3
          obtain ⟨nv, h3, rfl⟩ := h3
          obtain ⟨n, k3, rfl⟩ := k3
          exact ⟨n :: nv, .cons k3 h3, rfl⟩

/-- Reading several rows is reading them one by one. -/
theorem qGetMany_ok {q : QArr K} {js : List Int} {vs : List (List K)} :
    q.getMany js = .ok vs ↔ mapRes q.getOne js = .ok vs := by
  rw [mapRes_ok]
  have e1 : q.getMany js = .ok vs ↔ ∃ cs out,
      List.Forall₂ (fun j c => npGet q.codes j = .ok c) js cs ∧
      List.Forall₂ (fun c w => q.pq.reconstruct c = .ok w) cs out ∧
      (match q.norms with
        | none => vs = out
        | some ns => ∃ nv, List.Forall₂ (fun j n => npGet ns j = .ok n) js nv ∧
            vs = List.zipWith scale nv out) := by
    unfold QArr.getMany npTake
    constructor
    · intro h
      obtain ⟨cs, h1, h⟩ := res_bind_inv h
      obtain ⟨out, h2, h⟩ := res_bind_inv h
      refine ⟨cs, out, mapRes_ok.mp h1, mapRes_ok.mp h2, ?_⟩
      cases hn : q.norms with
      | none => rw [hn] at h; cases h; rfl
      | some ns =>
        rw [hn] at h
        obtain ⟨nv, h3, h⟩ := res_bind_inv h
        cases h
        exact ⟨nv, mapRes_ok.mp h3, rfl⟩
    · rintro ⟨cs, out, h1, h2, h3⟩
      rw [mapRes_ok.mpr h1]
      show (mapRes q.pq.reconstruct cs >>= _) = _
      rw [mapRes_ok.mpr h2]
      cases hn : q.norms with
      | none => rw [hn] at h3; cases h3; rfl
      | some ns =>
        rw [hn] at h3
        obtain ⟨nv, h3, rfl⟩ := h3
        show (mapRes (npGet ns) js >>= _) = _
        rw [mapRes_ok.mpr h3]; rfl
  rw [e1]
  exact qRows_iff

end

end FF
