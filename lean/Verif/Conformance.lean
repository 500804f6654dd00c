import Verif.Model.Embeddings
/-!
# The model against the repository's own tests
Values that `/repo/tests` expects from the implementation, evaluated in the model.  These are
checks of the model, not proofs of properties.
-/

namespace FF

/-- Ascending order, by insertion. -/
def insertSorted (x : Nat) : List Nat → List Nat
  | [] => [x]
  | y :: ys => if x ≤ y then x :: y :: ys else y :: insertSorted x ys

def sortNat (l : List Nat) : List Nat := l.foldr insertSorted []

/-- tests/test_subwords.py:16 -/
example : sortNat ((⟨10, 3, 6⟩ : FifuIndexer).indices
    [116, 252, 98, 105, 110, 103, 101, 110] 0 true) =
      [12, 67, 72, 122, 166, 179, 195, 244, 248, 274, 298, 306, 323, 414, 547, 588, 646, 649,
      705, 715, 759, 815, 818, 855, 858, 1005] := by
  decide +kernel

/-- tests/test_subwords.py:19 -/
example : (⟨10, 3, 6⟩ : FifuIndexer).call [60, 116, 252] = 818 := by decide +kernel

/-- tests/test_subwords.py:22 -/
example : (⟨10, 3, 6⟩ : FifuIndexer).indices [] 0 true = [] := by decide +kernel

/-- tests/test_subwords.py:38 -/
example : (FtIndexer.indices ⟨2000000, 3, 6⟩
    [252, 98, 101, 114, 115, 112, 114, 105, 110, 103, 101, 110] 0 true).toOption.map sortNat =
      some [79599, 119685, 255527, 263610, 352266, 385524, 403356, 421853, 485366, 488156, 586161,
      619228, 629649, 642367, 716781, 751724, 754367, 771707, 799583, 887882, 894109, 904527,
      908492, 978563, 991164, 992241, 1142035, 1230973, 1278156, 1350653, 1414694, 1513262,
      1533308, 1607098, 1607788, 1664269, 1712300, 1749574, 1793082, 1891605, 1934955,
      1992797] := by
  decide +kernel

/-- tests/test_subwords.py:41 -/
example : FtIndexer.call ⟨2000000, 3, 6⟩ [101, 110, 62] = .ok 619228 := by decide +kernel

/-- tests/test_subwords.py:42 -/
example : FtIndexer.indices ⟨2000000, 3, 6⟩ [] 0 true = .ok [] := by decide +kernel

end FF
