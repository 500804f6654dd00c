import Verif.Lemmas.Optimized
import Verif.Lemmas.FtLayout
import Verif.Lemmas.Size
import Verif.Lemmas.Utf8Lossy
import Verif.Props.C79
/-!
# fastText files with and without assertions
-/

namespace FF

namespace Asserts

variable {z : Bool}

theorem readFtVocab (b mn mx : Int) (lossy : Bool) :
    Rd.Asserts z (FF.readFtVocab b mn mx lossy) (Opt.readFtVocab b mn mx lossy) := by
  refine rd_bind (rd_rfl _) fun xs => ?_
  split
  · dsimp only
    split
    · exact fun s => .inl rfl
    · refine rd_bind (rd_rfl _) fun _ => rd_bind (rd_rfl _) fun _ => ?_
      split
      · exact fun s => .inl rfl
      · exact rd_bind (rd_rfl _) fun _ => rd_bind (lift (ft _ _ _)) fun _ =>
          rd_bind (lift (vocab _ _)) fun _ => rd_rfl _
  · rename_i hx
    split
    · exact (hx _ _ _ rfl).elim
    · exact rd_rfl _

end Asserts

section
variable {K : Type} [NumOps K] [Codec K]

omit [NumOps K] in
/-- What `load_fasttext` reads, with assertions -/
def readFtA (lossy : Bool) : Rd (FtCfg × Vocab × FtIndexer × Mat K) := do
  readFtHeader
  let cfg ← readFtCfg
  let (v, ix) ← readFtVocab cfg.buckets cfg.minN cfg.maxN lossy
  let m ← Opt.readFtMatrix
  return (cfg, v, ix, m)

omit [NumOps K] in
theorem readFt_asserts (lossy : Bool) :
    Rd.Asserts false (readFtA lossy : Rd (FtCfg × Vocab × FtIndexer × Mat K)) (Opt.readFt lossy) :=
  Asserts.rd_bind (Asserts.rd_rfl _) fun _ => Asserts.rd_bind (Asserts.rd_rfl _) fun _ =>
    Asserts.rd_bind (Asserts.readFtVocab _ _ _ _) fun _ => Asserts.rd_rfl _

theorem readFtStorage_eq (v : Vocab) (ix : FtIndexer) : (readFtStorage v ix : Rd (Mat K)) =
    Opt.readFtMatrix >>= fun m => Rd.lift (precomputeWords v (.ft ix) m.cols 0 v.words m.rows >>= fun rs =>
      .ok ⟨m.cols, rs⟩) := by
  funext s
  unfold readFtStorage Opt.readFtMatrix
  simp only [bind_assoc]
  rw [rd_bind, rd_bind]
  cases readOne 1 s with
  | error x => rfl
  | ok p =>
    dsimp only
    split
    · rfl
    · simp only [bind_assoc]
      rw [rd_bind, rd_bind]
      cases readSigned [8, 8] p.2 with
      | error x => rfl
      | ok q =>
        obtain ⟨rc, s2⟩ := q
        dsimp only
        match rc with
        | [r, c] =>
          simp only [bind_assoc]
          rw [rd_bind, rd_bind]
          cases fromFileInt (r * c) s2 with
          | error x => rfl
          | ok y =>
            dsimp only
            rw [rd_bind, rd_bind]
            cases (reshapeInt r c (y.1.map Codec.ofBits) : Res (Mat K)) with
            | error x => rfl
            | ok m =>
              show (Rd.lift (precomputeWords v (.ft ix) m.cols 0 v.words m.rows) >>= fun rs => _) y.2 = Rd.lift _ y.2
              cases precomputeWords v (.ft ix) m.cols 0 v.words m.rows <;> rfl
        | [] => rfl
        | [_] => rfl
        | _ :: _ :: _ :: _ => rfl

/-- The computation after reading, with assertions -/
def finishFt (cfg : FtCfg) (v : Vocab) (ix : FtIndexer) (m : Mat K) : Res (Embeddings K) := do
  let rs ← precomputeWords v (.ft ix) m.cols 0 v.words m.rows
  let (words, norms) := normalizeMatrix (rs.take v.len)
  Embeddings.new (.nd ⟨m.cols, words ++ rs.drop v.len⟩) v (some norms) (some cfg.toMeta)

theorem loadFasttext_eq (lossy : Bool) (bs : Bytes) : (Rd.run (loadFasttext lossy) bs : Res (Embeddings K)) =
    (Rd.run (readFtA lossy) bs : Res (FtCfg × Vocab × FtIndexer × Mat K)) >>= fun p => finishFt p.1 p.2.1 p.2.2.1 p.2.2.2 := by
  unfold Rd.run loadFasttext readFtA
  rw [rd_bind, rd_bind]
  cases readFtHeader ⟨bs, 0⟩ with
  | error x => rfl
  | ok p =>
    dsimp only
    rw [rd_bind, rd_bind]
    cases readFtCfg p.2 with
    | error x => rfl
    | ok q =>
      dsimp only
      rw [rd_bind, rd_bind]
      cases readFtVocab q.1.buckets q.1.minN q.1.maxN lossy q.2 with
      | error x => rfl
      | ok y =>
        dsimp only
        rw [readFtStorage_eq, rd_bind, rd_bind, rd_bind]
        cases (Opt.readFtMatrix y.2 : Except PyErr (Mat K × RFile)) with
        | error x => rfl
        | ok m =>
          show _ = finishFt q.1 y.1.1 y.1.2 m.1
          unfold finishFt
          dsimp only
          cases precomputeWords y.1.1 (.ft y.1.2) m.1.cols 0 y.1.1.words m.1.rows with
          | error x => rfl
          | ok rs =>
            rw [show (Rd.lift (Except.ok rs >>= fun rs => Except.ok (⟨m.1.cols, rs⟩ : Mat K)) m.2) =
              .ok (⟨m.1.cols, rs⟩, m.2) from rfl]
            dsimp only [Except.bind, bind]
            generalize (Embeddings.new (.nd ⟨m.1.cols, (normalizeMatrix (rs.take y.1.1.len)).1 ++ rs.drop y.1.1.len⟩) y.1.1
              (some (normalizeMatrix (rs.take y.1.1.len)).2) (some q.1.toMeta) : Res (Embeddings K)) = r
            cases r <;> rfl

omit [NumOps K] [Codec K] in
theorem forall₂_mem {α β : Type} {R : α → β → Prop} {xs : List α} {ys : List β} (h : List.Forall₂ R xs ys) {y : β}
    (hy : y ∈ ys) : ∃ x ∈ xs, R x y := by
  induction h with
  | nil => cases hy
  | @cons p w' ps ws hd _ ih =>
    rcases List.mem_cons.mp hy with rfl | hw
    · exact ⟨p, .head _, hd⟩
    · obtain ⟨p', hp', h'⟩ := ih hw
      exact ⟨p', .tail _ hp', h'⟩

omit [NumOps K] in
theorem readFtA_words {lossy : Bool} {bs : Bytes} {p : FtCfg × Vocab × FtIndexer × Mat K}
    (h : Rd.run (readFtA lossy) bs = .ok p) :
    (∀ w ∈ p.2.1.words, w.length ≤ bs.length) ∧
      FtIndexer.new p.1.buckets p.1.minN p.1.maxN = .ok p.2.2.1 := by
  unfold Rd.run at h
  cases hr : (readFtA lossy : Rd (FtCfg × Vocab × FtIndexer × Mat K)) ⟨bs, 0⟩ with
  | error x => rw [hr] at h; cases h
  | ok q =>
    rw [hr] at h
    obtain ⟨q, sq⟩ := q
    cases h
    unfold readFtA at hr
    obtain ⟨_, s1, h1, hr⟩ := rd_bind_inv hr
    obtain ⟨cfg, s2, h2, hr⟩ := rd_bind_inv hr
    obtain ⟨vi, s3, h3, hr⟩ := rd_bind_inv hr
    obtain ⟨m, s4, h4, hr⟩ := rd_bind_inv hr
    cases hr
    have a1 := readFtHeader_ate h1
    obtain ⟨_, _, _, _, _, a2⟩ := readFtCfg_ate h2
    obtain ⟨n, nw, nt, prune, ps, _, _, _, _, _, _, _, _, hf, hix, a3⟩ := readFtVocab_ate h3
    refine ⟨fun w hw => ?_, hix⟩
    have a := (a1.trans a2).trans a3
    have hex := forall₂_mem hf hw
    obtain ⟨p, hp, hd⟩ := hex
    have hl := decodesTo_length (decodeLossy_iff.mp hd)
    have hm : (ftEntryBytes p).length ≤ (ps.flatMap ftEntryBytes).length := by
      rw [List.length_flatMap]
      exact List.single_le_sum (by simp) _ (List.mem_map_of_mem hp)
    have := congrArg List.length a.2
    simp only [List.length_append, List.drop_zero, ftEntryBytes] at this hm
    omega

theorem utf8_le (w : PyStr) : (utf8 w).length ≤ 4 * w.length := by
  induction w with
  | nil => simp [utf8]
  | cons c w ih =>
    have : (utf8 (c :: w)).length = (encCode c).length + (utf8 w).length := by
      simp [utf8]
    have h4 : (encCode c).length ≤ 4 := by
      unfold encCode
      dsimp only
      split_ifs <;> simp
    simp only [List.length_cons]
    omega

theorem wordFits {w : PyStr} (h : w.length < 2 ^ 29) (b : Bool) : WordFits (bracketed b w) := by
  intro e he
  obtain ⟨rfl, _⟩ := encode_ok he
  have := utf8_le (bracketed b w)
  have : (bracketed b w).length ≤ w.length + 2 := by
    unfold bracketed
    split <;> simp
  omega

omit [Codec K] in
theorem precomputeWords_eq {n lo hi : Int} {ix : FtIndexer} (h : FtIndexer.new n lo hi = .ok ix) (v : Vocab) (cols : Nat)
    (ws : List PyStr) (hw : ∀ w ∈ ws, w.length < 2 ^ 29) (i : Nat) (rows : List (List K)) :
    Opt.precomputeWords v.words.length ix cols i ws rows = .ok (precomputeWords v (.ft ix) cols i ws rows) := by
  induction ws generalizing i rows with
  | nil => rfl
  | cons w ws ih =>
    rw [Opt.precomputeWords, C79_fasttext_partial _ n lo hi ix h _ _ _ (wordFits (hw w (.head _)) true), precomputeWords]
    show (match ix.subwordLoop (fun _ h => h) w (UInt64.ofNat v.words.length) true with
      | .error x => .ok (.error x)
      | .ok sub =>
        match Opt.precomputeRow cols i rows sub with
        | .error x => .ok (.error x)
        | .ok rows => Opt.precomputeWords v.words.length ix cols (i + 1) ws rows : CM (Res (List (List K)))) = _
    have hs : v.subwordIndices (.ft ix) w = (ix.subwordLoop (fun _ h => h) w (UInt64.ofNat v.words.length) true).map
        (List.map fun n : Nat => (n : Int)) := by
      show (ix.subwordLoop (fun _ h => h) w (UInt64.ofNat v.words.length) true >>= fun l =>
        .ok (l.map fun n : Nat => (n : Int)) : Res (List Int)) = _
      cases ix.subwordLoop (fun _ h => h) w (UInt64.ofNat v.words.length) true <;> rfl
    rw [hs]
    cases ix.subwordLoop (fun _ h => h) w (UInt64.ofNat v.words.length) true with
    | error x => rfl
    | ok sub =>
      show (match Opt.precomputeRow cols i rows sub with
        | .error x => .ok (.error x)
        | .ok rows => Opt.precomputeWords v.words.length ix cols (i + 1) ws rows : CM (Res (List (List K)))) =
        .ok (npTake rows ((i : Int) :: sub.map fun n : Nat => (n : Int)) >>= fun sel =>
          npSet rows i (vdiv (addReduce cols sel) (NumOps.ofNat sel.length)) >>= fun rows =>
            precomputeWords v (.ft ix) cols (i + 1) ws rows)
      have hp : Opt.precomputeRow cols i rows sub = npTake rows ((i : Int) :: sub.map fun n : Nat => (n : Int)) >>= fun sel =>
          npSet rows i (vdiv (addReduce cols sel) (NumOps.ofNat sel.length)) := rfl
      rw [hp]
      cases npTake rows ((i : Int) :: sub.map fun n : Nat => (n : Int)) with
      | error x => rfl
      | ok sel =>
        show (match npSet rows i (vdiv (addReduce cols sel) (NumOps.ofNat sel.length)) with
          | .error x => .ok (.error x)
          | .ok rows => Opt.precomputeWords v.words.length ix cols (i + 1) ws rows : CM (Res (List (List K)))) =
          .ok (npSet rows i (vdiv (addReduce cols sel) (NumOps.ofNat sel.length)) >>= fun rows =>
            precomputeWords v (.ft ix) cols (i + 1) ws rows)
        cases npSet rows (i : Int) (vdiv (addReduce cols sel) (NumOps.ofNat sel.length)) with
        | error x => rfl
        | ok rows => exact ih (fun w h => hw w (.tail _ h)) _ _

theorem loadFasttext_asserts (lossy : Bool) (bs : Bytes) (hbs : bs.length < 2 ^ 29) :
    Opt.loadFasttext lossy bs = .ok (Rd.run (loadFasttext lossy) bs : Res (Embeddings K)) ∨
      (Rd.run (loadFasttext lossy) bs : Res (Embeddings K)) = .error .assertionError := by
  rw [loadFasttext_eq]
  unfold Opt.loadFasttext
  rcases (readFt_asserts lossy : Rd.Asserts false _ (Opt.readFt lossy : Rd (FtCfg × Vocab × FtIndexer × Mat K))).run_ bs
    with h | h | ⟨h, _⟩
  · rw [← h]
    cases hr : (Rd.run (readFtA lossy) bs : Res (FtCfg × Vocab × FtIndexer × Mat K)) with
    | error x => exact .inl rfl
    | ok p =>
      obtain ⟨hw, hix⟩ := readFtA_words hr
      dsimp only
      rw [precomputeWords_eq hix p.2.1 _ _ (fun w h => by have := hw w h; omega)]
      show (match precomputeWords p.2.1 (.ft p.2.2.1) p.2.2.2.cols 0 p.2.1.words p.2.2.2.rows with
        | .error x => .ok (.error x)
        | .ok rs => .ok (Opt.embeddings _ p.2.1 _ _) : CM (Res (Embeddings K))) = .ok (finishFt _ _ _ _) ∨
          finishFt _ _ _ _ = _
      unfold finishFt
      cases precomputeWords p.2.1 (.ft p.2.2.1) p.2.2.2.cols 0 p.2.1.words p.2.2.2.rows with
      | error x => exact .inl rfl
      | ok rs =>
        rcases Asserts.embeddings (z := false) (.nd ⟨p.2.2.2.cols, (normalizeMatrix (rs.take p.2.1.len)).1 ++ rs.drop p.2.1.len⟩)
          p.2.1 (some (normalizeMatrix (rs.take p.2.1.len)).2) (some p.1.toMeta) with h | h | ⟨h, _⟩
        · left
          show Except.ok (Opt.embeddings _ _ _ _) = Except.ok (Embeddings.new _ _ _ _)
          exact congrArg Except.ok h.symm
        · right
          exact h
        · cases h
  · right
    rw [h]
    rfl
  · cases h

end

end FF
