import Verif.Props.Sdf

/-!
# A new field answers every history of calls (C104)
-/

namespace Verif

open Spec

instance {d : Dims} {i : Idx} : Decidable (InBounds d i) := by unfold InBounds; infer_instance

namespace Sdf

variable {P V : Type}

theorem replies_get (locIdx : P → Idx) (ops : List (Op P V)) : ∀ (s : Sdf V) (k : Nat),
    (s.replies locIdx ops)[k]? =
      ops[k]?.map fun o => match o.call locIdx with
        | .write i _ => some (decide (lockedAfter s.locked ((ops.take k).map (Op.call locIdx)) = false) &&
            s.grid.dims.inB i)
        | _ => none := by
  induction ops with
  | nil => intro s k; simp [replies]
  | cons o ops ih =>
    intro s k
    cases k with
    | zero =>
      simp only [replies, List.getElem?_cons_zero, Option.map_some, List.take_zero, List.map_nil, lockedAfter]
      rw [C02_call_result]
      rfl
    | succ k =>
      simp only [replies, List.getElem?_cons_succ, List.take_succ_cons, List.map_cons]
      rw [ih, apply_dims, apply_locked]
      cases o.call locIdx <;> rfl

end Sdf

/-- C104.  A field constructed with dimensions `d` and the value `oob` is unlocked and holds `oob` in every cell.
Along every history of `Lock`, `Unlock`, `SetValue` and `GetMutable`-then-write calls, the call number `k` reports
success exactly when it addresses a cell of the grid and no `Lock` since the last `Unlock` precedes it; and afterwards
every cell reads as the last value written to it while the field was unlocked, or `oob` if there is none. -/
theorem C104_new_field {P V : Type} (locIdx : P → Idx) (d : Dims) (oob : V) (ops : List (Sdf.Op P V)) :
    (∀ k : Nat, ((Sdf.create d oob).replies locIdx ops)[k]? =
      ops[k]?.map fun o => match o.call locIdx with
        | .write i _ =>
          some (decide (InBounds d i ∧ lockedAfter false ((ops.take k).map (Sdf.Op.call locIdx)) = false))
        | _ => none) ∧
    (∀ i, InBounds d i → ((Sdf.create d oob).run locIdx ops).getImm i =
      ((lastWrite (unlockedWrites false (ops.map (Sdf.Op.call locIdx))) i).getD oob, true)) ∧
    ((Sdf.create d oob).run locIdx ops).isLocked = lockedAfter false (ops.map (Sdf.Op.call locIdx)) := by
  refine ⟨fun k => ?_, fun i hi => ?_, ?_⟩
  · rw [Sdf.replies_get]
    congr 1
    funext o
    cases o.call locIdx with
    | lock => rfl
    | unlock => rfl
    | write i v =>
      show some (_ && d.inB i) = some _
      congr 1
      rw [Bool.eq_iff_iff, Bool.and_eq_true, decide_eq_true_eq, decide_eq_true_eq, inB_iff_spec]
      exact And.comm
  · have h := (C02_read_last_unlocked_write locIdx (Sdf.create d oob) (Grid.wf_mk' _ _ _) ops i hi).1
    rw [h]
    have hb : d.inB i = true := inB_iff_spec.mpr hi
    have : ((Sdf.create d oob).getImm i).1 = oob := by
      have hw : (Sdf.create d oob).grid.WF := Grid.wf_mk' _ _ _
      simp only [Sdf.getImm, Sdf.create, Grid.getImm]
      rw [Grid.get_mk', if_pos hb]
    rw [this]
    rfl
  · exact (Sdf.run_spec locIdx ops (s := Sdf.create d oob) (Grid.wf_mk' _ _ _)).1

/-- A history on a field of 2 x 1 x 1 cells with both outcomes of a write, and its replies. -/
example : (Sdf.create ⟨2, 1, 1⟩ 5).replies (P := Idx) id
    [.set ⟨1, 0, 0⟩ 7, .setAt ⟨2, 0, 0⟩ 8, .lock, .mutWrite ⟨1, 0, 0⟩ 9, .unlock, .mutWriteAt ⟨0, 0, 0⟩ 6] =
      [some true, some false, none, some false, none, some true] := by decide

end Verif
