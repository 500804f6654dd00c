import Verif.Lemmas.DamageFtWord
import Verif.Lemmas.Word2VecRef
import Verif.Props.C103
import Verif.Props.C106
/-! C107: damage to a word in a fastText file changes that word only. -/

namespace FF
open Fifu

section
variable {K : Type} [NumOps K] [Codec K]

/-- On any fastText file that loads, take other bytes, none of them zero, in the place of word `i`.  If they stand for a
text that is not one of the other words, the file loads with this text as word `i`, and vectors and norms of all words,
known or unknown, but the old and the new word `i` are as before.  If the text is one of the other words, loading fails
with an `AssertionError`.  If the bytes are not a text, loading fails with a `UnicodeDecodeError`; this does not happen
if `lossy` is set. -/
theorem C107_fasttext (lossy : Bool) (bs : Bytes) (hbs : bs.length < 2 ^ 63) (e : Embeddings K)
    (h : Rd.run (loadFasttext lossy) bs = .ok e) :
    ∃ f : FtFile, f.OK ∧ FtLoaded f (f.rows.map fun r => r.map Codec.ofBits) e ∧
      ∀ (i : Nat) w n, f.words[i]? = some (w, n) → ∃ pos k, HasAt bs pos k ∧ DecodesTo lossy k w ∧
        ∀ bs' k', DiffersWithin bs bs' pos (pos + k.length) → k'.length = k.length → HasAt bs' pos k' →
          (0 : UInt8) ∉ k' →
          (∀ w', DecodesTo lossy k' w' → (∀ j, j ≠ i → e.vocab.words[j]? ≠ some w') →
            ∃ e', Rd.run (loadFasttext lossy) bs' = .ok e' ∧
              FtLoaded { f with words := f.words.set i (w', n) } (f.rows.map fun r => r.map Codec.ofBits) e' ∧
              e'.vocab.words = e.vocab.words.set i w' ∧ e'.metadata = e.metadata ∧
              ∀ u, u.any isSurrogate = false → u ≠ w → u ≠ w' →
                e'.embedding u = e.embedding u ∧ e'.embeddingWithNorm u = e.embeddingWithNorm u) ∧
          (∀ w' j, DecodesTo lossy k' w' → j ≠ i → e.vocab.words[j]? = some w' →
            Rd.run (loadFasttext (K := K) lossy) bs' = .error .assertionError) ∧
          ((¬ ∃ w', DecodesTo lossy k' w') →
            Rd.run (loadFasttext (K := K) lossy) bs' = .error .unicodeDecodeError) := by
  obtain ⟨L, f, hL, rfl, hr, hf, hl⟩ := (C62_fasttext lossy bs hbs e).mp h
  refine ⟨f, hf, hl, fun i w n hi => ?_⟩
  obtain ⟨pos, k, h1, h2, hent, h3⟩ := ftWord_damage hL hr hi
  refine ⟨pos, k, h1, h2, fun bs' k' hd hkl hat h0 => ?_⟩
  obtain ⟨L', g1, rfl, g3, g4, g5, g6, g7⟩ := h3 bs' k' hd hkl hat h0
  have hw : e.vocab.words = f.words.map Prod.fst := hl.1
  have hlt : i < f.words.length := (List.getElem?_eq_some_iff.mp hi).1
  have hnod := set_nodup_iff hf.nodup (i := i) (by simpa using hlt)
  have hlen : L'.bytes.length < 2 ^ 63 := by rw [hd.1]; exact hbs
  have hcfg : f.cfg.Of L'.args L'.threshold := by rw [g5, g6]; exact hr.cfg
  have hprune : L'.prune < 0 := by rw [g4, hr.sizes.2.2]; exact hf.prune
  refine ⟨fun w' hw' hnew => ?_, fun w' j hw' hj hdup => ?_, fun hno => ?_⟩
  · have hf' := ftOK_word hf hi (decodesTo_nul hw' h0) (decodesTo_scalar hw')
      (by rw [List.map_set]; exact (hnod w').mpr (by rw [← hw]; exact hnew))
    obtain ⟨e', r1, r2⟩ := load_of_reads (K := K) g1 hlen (g7 w' hw') hf'
    have r2 : FtLoaded { f with words := f.words.set i (w', n) } (f.rows.map fun r => r.map Codec.ofBits) e' := r2
    obtain ⟨q1, q2⟩ := ftLoaded_word hf (w' := w') (raw := (f.rows.map fun r => r.map Codec.ofBits : List (List K))) (List.length_map _) hi hl r2
    exact ⟨e', r1, r2, q1, r2.2.2.2.1.trans hl.2.2.2.1.symm, q2⟩
  · refine loadFasttext_bad g1 hprune hcfg hf.new_ix (Or.inr ⟨_, forall₂_fst (g7 w' hw').words, ?_⟩)
    refine vocabNew_dup ?_ _
    show ¬ ((f.words.set i (w', n)).map Prod.fst).Nodup
    rw [List.map_set, hnod w']
    intro hx
    exact hx j hj (by rw [← hw]; exact hdup)
  · refine loadFasttext_bad g1 hprune hcfg hf.new_ix (Or.inl ⟨rfl, (k', n), ?_, hno⟩)
    rw [g3]
    refine List.mem_of_getElem? (i := i) (List.getElem?_set_self ?_)
    exact (List.getElem?_eq_some_iff.mp hent).1

end

namespace Sample

/-- `ftShared` with two buckets -/
def ftTwo : FtFile := { ftShared with
  buckets := 2
  rows := [[0x3F800000, 0], [0, 0x3F800000], [0x3F800000, 0x3F800000], [0, 0x40000000]] }

/-- The file with another byte as its first word. -/
def ftTwoWith (b : UInt8) : Bytes := ftTwo.bytes.set 92 b

end Sample

/-- The vector of the damaged word is not kept, unlike in finalfusion files (C103): it is computed from the n-grams of
the new word. -/
theorem C107_vector_refuted : ∃ b : UInt8, ∃ v v', Sample.ftVec Sample.ftTwo.bytes [97] = some v ∧
    Sample.ftVec (Sample.ftTwoWith b) [toCode b.toNat] = some v' ∧ v ≠ v' := by
  have key : ∀ x y : Option (List F32), x.isSome && y.isSome && x != y → ∃ v v', x = some v ∧ y = some v' ∧ v ≠ v' := by
    intro x y h
    cases x with
    | none => simp at h
    | some v =>
      cases y with
      | none => simp at h
      | some v' => exact ⟨v, v', rfl, rfl, by simpa using h⟩
  exact ⟨100, key _ _ (by decide +kernel)⟩

/-! ### The hypotheses can be met -/

/-- `a` is at byte 92. -/
example : HasAt Sample.ftTwo.bytes 92 [97] ∧ Sample.ftTwo.words[0]? = some ([97], 1) := by
  unfold HasAt
  decide +kernel

/-- Another letter: `b` is as before, and so is the unknown word `c`. -/
example : Sample.ftVec (Sample.ftTwoWith 100) [98] = Sample.ftVec Sample.ftTwo.bytes [98] ∧
    Sample.ftVec (Sample.ftTwoWith 100) [99] = Sample.ftVec Sample.ftTwo.bytes [99] ∧
    (Sample.ftVec Sample.ftTwo.bytes [98]).isSome ∧ (Sample.ftVec Sample.ftTwo.bytes [99]).isSome := by
  decide +kernel

/-- A second `b`; a byte that is not UTF-8 -/
example : Sample.errOf (Rd.run (@loadFasttext F32 b32Ops _ false) (Sample.ftTwoWith 98)) = some .assertionError ∧
    Sample.errOf (Rd.run (@loadFasttext F32 b32Ops _ false) (Sample.ftTwoWith 255)) = some .unicodeDecodeError ∧
    Sample.errOf (Rd.run (@loadFasttext F32 b32Ops _ true) (Sample.ftTwoWith 255)) = none := by
  decide +kernel

end FF
