import Verif.Model.Objects
import Verif.Spec.Built
/-!
# Which objects a vocabulary depends on
-/

namespace FF

/-- The lists that a vocabulary refers to: its words and the n-grams of its indexer -/
def VocabObj.UsesList (v : VocabObj) (r : Nat) : Prop :=
  r = v.words ∨ ∃ mn mx i b, v.sub = some (.expl r mn mx i b)

/-- The dicts of n-gram indices that a vocabulary refers to -/
def VocabObj.UsesG (v : VocabObj) (r : Nat) : Prop := ∃ gs mn mx b, v.sub = some (.expl gs mn mx r b)

/-- Steps in which the caller changes a list or dict that `v` refers to -/
def ObjStep.Changes (v : VocabObj) : ObjStep → Prop
  | .setList r _ => v.UsesList r
  | .setW r _ => r = v.index
  | .setG r _ => v.UsesG r
  | _ => False

/-- Steps in which the caller changes nothing that exists -/
def ObjStep.Creates : ObjStep → Prop
  | .setList _ _ => False
  | .setW _ _ => False
  | .setG _ _ => False
  | _ => True

/-- Everything that exists in `h` is unchanged in `h'`. -/
structure Objs.Ext (h h' : Objs) : Prop where
  lists : ∀ (r : Nat) x, h.lists[r]? = some x → h'.lists[r]? = some x
  widx : ∀ (r : Nat) x, h.widx[r]? = some x → h'.widx[r]? = some x
  gidx : ∀ (r : Nat) x, h.gidx[r]? = some x → h'.gidx[r]? = some x

end FF
