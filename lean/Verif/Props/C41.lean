import Verif.Props.C39
import Verif.Props.C40
import Verif.Lemmas.TextFile
/-! C41: rows of text files with a wrong number of components. -/

namespace FF

/-- Every line has exactly one reading as a word and components. -/
theorem C41_fields (line : PyStr) : ∃! p : PyStr × List PyStr, HasFields line p.1 p.2 := by
  have key : ∀ s : PyStr, (∀ c, s.getLast? = some c → isAsciiSpace c = false) →
      ∃ w sp, Fields w sp ∧ s = w ++ sp.flatMap fun x => x.1 ++ x.2 := by
    intro s
    induction s with
    | nil => exact fun _ => ⟨[], [], ⟨by simp, by simp, by simp⟩, rfl⟩
    | cons c s ih =>
      intro h
      cases s with
      | nil =>
        refine ⟨[c], [], ⟨?_, by simp, by simp⟩, by simp⟩
        intro d hd
        rw [List.mem_singleton] at hd
        subst hd
        exact h d rfl
      | cons c' s =>
        obtain ⟨w, sp, hf, he⟩ := ih fun d hd => h d (by rw [List.getLast?_cons_cons]; exact hd)
        cases hc : isAsciiSpace c with
        | false =>
          refine ⟨c :: w, sp, ⟨?_, hf.seps, hf.parts⟩, by rw [he]; rfl⟩
          intro d hd
          rcases List.mem_cons.mp hd with rfl | hd
          · exact hc
          · exact hf.word d hd
        | true =>
          cases w with
          | cons d w =>
            refine ⟨[], ([c], d :: w) :: sp, ⟨by simp, ?_, ?_⟩, by rw [he]; simp⟩
            · intro x hx
              rcases List.mem_cons.mp hx with rfl | hx
              · refine ⟨by simp, fun e he => ?_⟩
                rw [List.mem_singleton] at he
                subst he
                exact hc
              · exact hf.seps x hx
            · intro x hx
              rcases List.mem_cons.mp hx with rfl | hx
              · exact ⟨by simp, hf.word⟩
              · exact hf.parts x hx
          | nil =>
            cases sp with
            | nil => cases he
            | cons x sp =>
              refine ⟨[], (c :: x.1, x.2) :: sp, ⟨by simp, ?_, ?_⟩, by rw [he]; simp⟩
              · intro y hy
                rcases List.mem_cons.mp hy with rfl | hy
                · refine ⟨by simp, fun e he => ?_⟩
                  rcases List.mem_cons.mp he with rfl | he
                  · exact hc
                  · exact (hf.seps x (by simp)).2 e he
                · exact hf.seps y (List.mem_cons_of_mem _ hy)
              · intro y hy
                rcases List.mem_cons.mp hy with rfl | hy
                · exact hf.parts x (by simp)
                · exact hf.parts y (List.mem_cons_of_mem _ hy)
  have cut : ∀ s : PyStr, ∃ a t, s = a ++ t ∧ (∀ c ∈ t, isSpace c = true) ∧
      ∀ c, a.getLast? = some c → isSpace c = false := by
    intro s
    induction s using List.reverseRecOn with
    | nil => exact ⟨[], [], rfl, by simp, by simp⟩
    | append_singleton s c ih =>
      cases hc : isSpace c with
      | false => exact ⟨s ++ [c], [], by simp, by simp, by
          intro d hd
          rw [List.getLast?_append_of_ne_nil _ (by simp)] at hd
          cases hd
          exact hc⟩
      | true =>
        obtain ⟨a, t, rfl, h1, h2⟩ := ih
        refine ⟨a, t ++ [c], by simp, ?_, h2⟩
        intro d hd
        rcases List.mem_append.mp hd with hd | hd
        · exact h1 d hd
        · rw [List.mem_singleton] at hd; subst hd; exact hc
  obtain ⟨a, t, rfl, h1, h2⟩ := cut line
  obtain ⟨w, sp, hf, rfl⟩ := key a fun c hc => by
    cases h : isAsciiSpace c with
    | false => rfl
    | true => have := isSpace_of_ascii h; rw [h2 c hc] at this; cases this
  have hh : HasFields (w ++ (sp.flatMap fun x => x.1 ++ x.2) ++ t) w (sp.map Prod.snd) :=
    ⟨sp, rfl, hf, t, h1, rfl, h2⟩
  refine ⟨(w, sp.map Prod.snd), hh, ?_⟩
  intro p hp
  have e := (reSplit_fields hp).symm.trans (reSplit_fields hh)
  exact Prod.ext (List.cons.inj e).1 (List.cons.inj e).2

section
variable {K : Type} [NumOps K] [NumText K]

/-- `load_text_dims`: a line within the declared rows whose number of components is neither the
declared one nor one makes it raise.  (A single component is broadcast, see `C41_refuted`.) -/
theorem C41_dims_partial [TextIO] (lossy : Bool) (bs : Bytes) (first : PyStr) (lines : List PyStr)
    (stop : Option PyErr) (hl : Yields lossy bs (first :: lines) stop) (rows cols : Nat)
    (hd : DimsAre first (rows : Int) (cols : Int)) (i : Nat) (hi : i < rows)
    (line w : PyStr) (ps : List PyStr) (hline : lines[i]? = some line) (hf : HasFields line w ps)
    (h1 : ps.length ≠ cols) (h2 : ps.length ≠ 1) :
    ∃ e, (loadTextDims lossy bs : Res (Embeddings K)) = .error e := by
  rw [loadTextDims_yields hl]
  simp only
  rw [twoInts_iff.mpr hd]
  show ∃ e, loadTextLines _ _ _ = _
  unfold loadTextLines
  cases hz : zerosShape rows cols with
  | error e => exact ⟨e, rfl⟩
  | ok shape =>
    have : shape = (rows, cols) := by
      unfold zerosShape at hz
      split at hz
      · cases hz
      · exact (Except.ok.inj hz).symm
    subst this
    rw [res_bind_ok]
    obtain ⟨e, he⟩ := textRows_err (K := K) (stop := stop) hi hline (textRow_wrong hf h1 h2)
    simp only
    rw [he]
    exact ⟨e, rfl⟩

/-- `load_text`: the first line fixes the number of components; a line with another number of
components other than one makes it raise. -/
theorem C41_text_partial [TextIO] (lossy : Bool) (bs : Bytes) (first : PyStr) (lines : List PyStr)
    (stop : Option PyErr) (hl : Yields lossy bs (first :: lines) stop) (w0 : PyStr) (ps0 : List PyStr)
    (h0 : HasFields first w0 ps0) (i : Nat) (line w : PyStr) (ps : List PyStr)
    (hline : lines[i]? = some line) (hf : HasFields line w ps)
    (h1 : ps.length ≠ ps0.length) (h2 : ps.length ≠ 1) :
    ∃ e, (loadText lossy bs : Res (Embeddings K)) = .error e := by
  rw [loadText_yields hl]
  cases stop with
  | some x => exact ⟨x, rfl⟩
  | none =>
  simp only
  have hc : (reSplit (rstrip first)).length - 1 = ps0.length := by
    rw [reSplit_fields h0]; rfl
  rw [hc]
  unfold loadTextLines
  have hi := (List.getElem?_eq_some_iff.mp hline).1
  cases hz : zerosShape ((lines.length + 1 : Nat) : Int) (ps0.length : Nat) with
  | error e => exact ⟨e, rfl⟩
  | ok shape =>
    have : shape = (lines.length + 1, ps0.length) := by
      unfold zerosShape at hz
      split at hz
      · cases hz
      · exact (Except.ok.inj hz).symm
    subst this
    rw [res_bind_ok]
    obtain ⟨e, he⟩ := textRows_err (K := K) (n := lines.length + 1) (i := i + 1)
      (lines := first :: lines) (by omega) (by simpa using hline) (textRow_wrong hf h1 h2)
    simp only
    rw [he]
    exact ⟨e, rfl⟩

end

namespace Sample

/-- `2 2`, `a 1 2`, `b 3` -/
def shortDims : Bytes := [50, 32, 50, 10, 97, 32, 49, 32, 50, 10, 98, 32, 51, 10]

/-- `a 1 2`, `b 3` -/
def shortText : Bytes := [97, 32, 49, 32, 50, 10, 98, 32, 51, 10]

/-- `a 1 2`, `b 3 4 5` -/
def longText : Bytes := [97, 32, 49, 32, 50, 10, 98, 32, 51, 32, 52, 32, 53, 10]

/-- The loaded norms; with `f32Ops` they are the sums of the components. -/
def normsOf (r : Res (Embeddings F32)) : Option (List F32) :=
  match r with
  | .ok e => e.norms
  | .error _ => none

example : HasFields [98, 32, 51, 10] [98] [[51]] :=
  (hasFields_check _ [([32], [51])] [10] (by decide))

example : ∃ e, @loadText F32 f32Ops f32Text textIO false longText = .error e :=
  @C41_text_partial F32 f32Ops f32Text textIO false longText [97, 32, 49, 32, 50]
    [[98, 32, 51, 32, 52, 32, 53]] none (@yieldsLf textIO _ _ _ (by decide) (by decide)) [97] [[49], [50]]
    (hasFields_check _ [([32], [49]), ([32], [50])] [] (by decide))
    0 _ [98] [[51], [52], [53]] rfl
    (hasFields_check _ [([32], [51]), ([32], [52]), ([32], [53])] [] (by decide))
    (by decide) (by decide)

example : ∃ e, @loadTextDims F32 f32Ops f32Text textIO false
    [49, 32, 50, 10, 98, 32, 51, 32, 52, 32, 53, 10] = .error e :=
  @C41_dims_partial F32 f32Ops f32Text textIO false _ [49, 32, 50] [[98, 32, 51, 32, 52, 32, 53]] none
    (@yieldsLf textIO _ _ _ (by decide) (by decide)) 1 2 (twoInts_iff.mp (by decide +kernel)) 0 (by decide) _ [98]
    [[51], [52], [53]] rfl
    (hasFields_check _ [([32], [51]), ([32], [52]), ([32], [53])] [] (by decide))
    (by decide) (by decide)

end Sample

/-- The claim fails: a single component is copied to all positions, in both formats. -/
theorem C41_refuted :
    (¬ ∀ (bs : Bytes) (first : PyStr) (lines : List PyStr) (w0 : PyStr) (ps0 : List PyStr) (i : Nat)
      (line w : PyStr) (ps : List PyStr), @Yields Sample.textIO false bs (first :: lines) none →
      HasFields first w0 ps0 → lines[i]? = some line → HasFields line w ps →
      ps.length ≠ ps0.length → ∃ e, @loadText F32 Sample.f32Ops Sample.f32Text Sample.textIO false bs = .error e) ∧
    (¬ ∀ (bs : Bytes) (first : PyStr) (lines : List PyStr) (rows cols i : Nat) (line w : PyStr)
      (ps : List PyStr), @Yields Sample.textIO false bs (first :: lines) none →
      DimsAre first (rows : Int) (cols : Int) → i < rows → lines[i]? = some line →
      HasFields line w ps → ps.length ≠ cols →
      ∃ e, @loadTextDims F32 Sample.f32Ops Sample.f32Text Sample.textIO false bs = .error e) ∧
    Sample.normsOf (@loadText F32 Sample.f32Ops Sample.f32Text Sample.textIO false Sample.shortText) = some [3, 6] ∧
    Sample.normsOf (@loadTextDims F32 Sample.f32Ops Sample.f32Text Sample.textIO false Sample.shortDims) =
      some [3, 6] := by
  have hb : HasFields [98, 32, 51] [98] [[51]] :=
    (hasFields_check _ [([32], [51])] [] (by decide))
  refine ⟨?_, ?_, by decide +kernel, by decide +kernel⟩
  · intro h
    obtain ⟨e, he⟩ := h Sample.shortText [97, 32, 49, 32, 50] [[98, 32, 51]] [97]
      [[49], [50]] 0 _ _ _ (@Sample.yieldsLf Sample.textIO _ _ _ (by decide) (by decide))
      (hasFields_check _ [([32], [49]), ([32], [50])] [] (by decide))
      rfl hb (by decide)
    have : Sample.errOf (@loadText F32 Sample.f32Ops Sample.f32Text Sample.textIO false Sample.shortText) = none := by
      decide +kernel
    rw [he] at this
    cases this
  · intro h
    obtain ⟨e, he⟩ := h Sample.shortDims [50, 32, 50] [[97, 32, 49, 32, 50], [98, 32, 51]]
      2 2 1 _ _ _ (@Sample.yieldsLf Sample.textIO _ _ _ (by decide) (by decide))
      (twoInts_iff.mp (by decide +kernel)) (by decide) rfl hb (by decide)
    have : Sample.errOf (@loadTextDims F32 Sample.f32Ops Sample.f32Text Sample.textIO false Sample.shortDims) =
        none := by decide +kernel
    rw [he] at this
    cases this

end FF
