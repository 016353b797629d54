import Verif.Sdf
import Verif.Spec.Basic
import Verif.Props.CollisionMap

/-!
# Properties of the SDF setters and lock (C02, C03)
-/

namespace Verif

open Spec

namespace Spec

/-- What a user may call on a field, by cell index: lock, unlock, or one of the write calls. -/
inductive LockCall (V : Type) where
  | lock
  | unlock
  | write (i : Idx) (v : V)

/-- The writes made while the field was unlocked, oldest first.  `locked` is the state before the
history. -/
def unlockedWrites {V : Type} (locked : Bool) : List (LockCall V) → List (Idx × V)
  | [] => []
  | .lock :: r => unlockedWrites true r
  | .unlock :: r => unlockedWrites false r
  | .write i v :: r => if locked then unlockedWrites locked r else (i, v) :: unlockedWrites locked r

/-- Is the field locked after the history? -/
def lockedAfter {V : Type} (locked : Bool) : List (LockCall V) → Bool
  | [] => locked
  | .lock :: r => lockedAfter true r
  | .unlock :: r => lockedAfter false r
  | .write _ _ :: r => lockedAfter locked r

end Spec

/-- The user-level view of a call: which cell it addresses.  `locIdx` maps locations to cells. -/
def Sdf.Op.call {P V : Type} (locIdx : P → Idx) : Sdf.Op P V → LockCall V
  | .lock => .lock
  | .unlock => .unlock
  | .set i v => .write i v
  | .setAt p v => .write (locIdx p) v
  | .mutWrite i v => .write i v
  | .mutWriteAt p v => .write (locIdx p) v

namespace Sdf

variable {P V : Type}

theorem apply_locked (locIdx : P → Idx) (s : Sdf V) (o : Op P V) :
    (s.apply locIdx o).1.locked = lockedAfter s.locked [o.call locIdx] := by
  cases o <;>
    simp only [apply, lock, unlock, setValue, setValueAt, mutWrite, mutWriteAt, Op.call,
      lockedAfter] <;> (repeat' split) <;> rfl

theorem apply_get (locIdx : P → Idx) {s : Sdf V} (h : s.grid.WF) (o : Op P V) {i : Idx}
    (hi : s.grid.dims.inB i = true) :
    (s.apply locIdx o).1.grid.get i =
      match o.call locIdx with
      | .write j v => if j = i ∧ s.locked = false then v else s.grid.get i
      | _ => s.grid.get i := by
  have oobget : ∀ v, ({ s.grid with oob := v } : Grid V).get i = s.grid.get i := by
    intro v
    have hw : ({ s.grid with oob := v } : Grid V).WF := h
    exact Option.some.inj ((Grid.get_eq_getElem hw hi).symm.trans (Grid.get_eq_getElem h hi))
  cases o with
  | lock => rfl
  | unlock => rfl
  | set j v =>
    simp only [apply, setValue, Op.call]
    by_cases hl : s.locked = false <;> by_cases hj : s.grid.dims.inB j = true <;>
      by_cases hji : j = i
    all_goals simp_all [Grid.get_set]
  | mutWrite j v =>
    simp only [apply, mutWrite, Op.call]
    by_cases hl : s.locked = false <;> by_cases hj : s.grid.dims.inB j = true <;>
      by_cases hji : j = i
    all_goals simp_all [Grid.get_set]
  | setAt p v =>
    simp only [apply, setValueAt, setValue, Op.call]
    by_cases hl : s.locked = false <;> by_cases hj : s.grid.dims.inB (locIdx p) = true <;>
      by_cases hji : locIdx p = i
    all_goals simp_all [Grid.get_set]
  | mutWriteAt p v =>
    simp only [apply, mutWriteAt, mutWrite, Op.call]
    by_cases hl : s.locked = false <;> by_cases hj : s.grid.dims.inB (locIdx p) = true <;>
      by_cases hji : locIdx p = i
    all_goals simp_all [Grid.get_set]

theorem run_cons (locIdx : P → Idx) (s : Sdf V) (o : Op P V) (ops : List (Op P V)) :
    s.run locIdx (o :: ops) = (s.apply locIdx o).1.run locIdx ops := rfl

theorem lastWrite_cons {α : Type} (j : Idx) (v : α) (l : List (Idx × α)) (i : Idx) (d : α) :
    (lastWrite ((j, v) :: l) i).getD d = (lastWrite l i).getD (if j = i then v else d) := by
  have key : ∀ (l : List (Idx × α)) (acc : Option α) (d : α),
      (l.foldl (fun acc w => if w.1 = i then some w.2 else acc) acc).getD d =
        (l.foldl (fun acc w => if w.1 = i then some w.2 else acc) none).getD (acc.getD d) := by
    intro l
    induction l with
    | nil => intro acc d; cases acc <;> rfl
    | cons w l ih =>
      intro acc d
      simp only [List.foldl_cons]
      rw [ih (if w.1 = i then some w.2 else acc) d, ih (if w.1 = i then some w.2 else none)]
      congr 1
      split <;> simp
  unfold lastWrite
  rw [List.foldl_cons, key]
  congr 1
  simp only
  split <;> rfl

theorem run_spec (locIdx : P → Idx) (ops : List (Op P V)) : ∀ {s : Sdf V}, s.grid.WF →
    (s.run locIdx ops).locked = lockedAfter s.locked (ops.map (Op.call locIdx)) ∧
    ∀ i, s.grid.dims.inB i = true → (s.run locIdx ops).grid.get i =
      (lastWrite (unlockedWrites s.locked (ops.map (Op.call locIdx))) i).getD (s.grid.get i) := by
  induction ops with
  | nil => intro s _; exact ⟨rfl, fun i _ => rfl⟩
  | cons o ops ih =>
    intro s h
    obtain ⟨h1, h2⟩ := ih (apply_wf locIdx h o)
    have hl := apply_locked locIdx s o
    rw [run_cons]
    refine ⟨?_, ?_⟩
    · rw [h1, hl, List.map_cons]
      cases o.call locIdx <;> rfl
    · intro i hi
      rw [h2 i (by rw [apply_dims]; exact hi), apply_get locIdx h o hi, hl, List.map_cons]
      cases o.call locIdx with
      | lock => rfl
      | unlock => rfl
      | write j v =>
        simp only [lockedAfter, unlockedWrites]
        cases hs : s.locked
        · simp only [Bool.false_eq_true, if_false, and_true]
          rw [lastWrite_cons]
        · simp

end Sdf

/-- C02.  A `SetValue` (by index or by location) or `GetMutable` call succeeds exactly when the
field is unlocked and the addressed cell is in bounds. -/
theorem C02_call_result {P V : Type} (locIdx : P → Idx) (s : Sdf V) (o : Sdf.Op P V) :
    (s.apply locIdx o).2 =
      match o.call locIdx with
      | .write i _ => some (decide (s.isLocked = false) && s.grid.dims.inB i)
      | _ => none := by
  cases o <;>
    simp only [Sdf.apply, Sdf.setValue, Sdf.setValueAt, Sdf.mutWrite, Sdf.mutWriteAt, Sdf.Op.call,
      Sdf.isLocked]
  case set i v => by_cases h : s.grid.dims.inB i = true <;> by_cases h' : s.locked = true <;> simp [h, h']
  case setAt p v => by_cases h : s.grid.dims.inB (locIdx p) = true <;> by_cases h' : s.locked = true <;> simp [h, h']
  case mutWrite i v => by_cases h : s.grid.dims.inB i = true <;> by_cases h' : s.locked = true <;> simp [h, h']
  case mutWriteAt p v =>
    by_cases h : s.grid.dims.inB (locIdx p) = true <;> by_cases h' : s.locked = true <;> simp [h, h']

/-- C02.  After any history of `Lock`, `Unlock`, `SetValue` and `GetMutable`-then-write calls, an
in-bounds read returns the last value written to that cell while the field was unlocked. -/
theorem C02_read_last_unlocked_write {P V : Type} (locIdx : P → Idx) (s : Sdf V) (h : s.grid.WF)
    (ops : List (Sdf.Op P V)) (i : Idx) (hi : InBounds s.grid.dims i) :
    (s.run locIdx ops).getImm i =
        ((lastWrite (unlockedWrites s.isLocked (ops.map (Sdf.Op.call locIdx))) i).getD
          (s.getImm i).1, true) ∧
      (s.run locIdx ops).isLocked = lockedAfter s.isLocked (ops.map (Sdf.Op.call locIdx)) := by
  have hb : s.grid.dims.inB i = true := inB_iff_spec.mpr hi
  obtain ⟨h1, h2⟩ := Sdf.run_spec locIdx ops h
  obtain ⟨h3, h4⟩ := Sdf.run_wf locIdx ops h
  refine ⟨?_, h1⟩
  simp only [Sdf.getImm, Grid.getImm, h4, hb]
  rw [h2 i hb]; rfl

theorem unlockedWrites_locked {V : Type} : ∀ (l : List (LockCall V)), LockCall.unlock ∉ l →
    unlockedWrites true l = []
  | [], _ => rfl
  | .lock :: r, h => unlockedWrites_locked r (fun h' => h (List.mem_cons_of_mem _ h'))
  | .unlock :: r, h => (h List.mem_cons_self).elim
  | .write _ _ :: r, h => by
    simp only [unlockedWrites, if_true]
    exact unlockedWrites_locked r (fun h' => h (List.mem_cons_of_mem _ h'))

/-- C02.  While a field is locked (no `Unlock` in the history) no sequence of calls changes any
in-bounds value. -/
theorem C02_locked_is_frozen {P V : Type} (locIdx : P → Idx) (s : Sdf V) (h : s.grid.WF)
    (hl : s.isLocked = true) (ops : List (Sdf.Op P V)) (hu : Sdf.Op.unlock ∉ ops) (i : Idx)
    (hi : InBounds s.grid.dims i) : (s.run locIdx ops).getImm i = s.getImm i := by
  obtain ⟨h1, -⟩ := C02_read_last_unlocked_write locIdx s h ops i hi
  rw [h1, hl, unlockedWrites_locked]
  · have hb : s.grid.dims.inB i = true := inB_iff_spec.mpr hi
    simp [lastWrite, Sdf.getImm, Grid.getImm, hb]
  · intro hm
    obtain ⟨o, ho, he⟩ := List.mem_map.mp hm
    cases o <;> simp [Sdf.Op.call] at he
    exact hu ho

example : ∃ s : Sdf Nat, s.grid.WF ∧ s.isLocked = true ∧ InBounds s.grid.dims ⟨1, 0, 0⟩ ∧
    (s.run id [.set ⟨1, 0, 0⟩ 7, .mutWriteAt ⟨1, 0, 0⟩ 8]).getImm ⟨1, 0, 0⟩ = (5, true) ∧
    (s.run id [.unlock, .set ⟨1, 0, 0⟩ 7, .lock, .set ⟨1, 0, 0⟩ 9]).getImm ⟨1, 0, 0⟩
      = (7, true) :=
  ⟨(Sdf.create ⟨2, 1, 1⟩ 5).lock, Grid.wf_mk' _ _ _, rfl, by unfold InBounds; decide, by decide,
    by decide⟩

/-- C02, limit of the lock: a reference obtained from `GetMutable` before `Lock` still writes the
cell afterwards (the lock guards calls, not references). -/
theorem C02_held_reference_bypasses_lock {V : Type} (s : Sdf V) (h : s.grid.WF) (i : Idx) (v : V)
    (hi : InBounds s.grid.dims i) : (s.lock.heldWrite i v).getImm i = (v, true) := by
  have hb : s.grid.dims.inB i = true := inB_iff_spec.mpr hi
  have : s.lock.grid = s.grid := rfl
  simp [Sdf.heldWrite, Sdf.getImm, Grid.getImm, this, Grid.get_set_self h hb, hb]

/-! ## C03 for signed distance fields -/

/-- C03 (part).  Histories of `Lock`, `Unlock` and `SetValue` calls leave every out-of-bounds read
at `(construction-time value, false)`. -/
theorem C03_sdf_oob_stable_partial {P V : Type} (locIdx : P → Idx) (d : Dims) (oob : V)
    (ops : List (Sdf.Op P V))
    (hops : ∀ o ∈ ops, match o with | .mutWrite _ _ => False | .mutWriteAt _ _ => False | _ => True)
    (i : Idx) (hi : ¬ InBounds d i) :
    ((Sdf.create d oob).run locIdx ops).getImm i = (oob, false) := by
  have key : ∀ (ops : List (Sdf.Op P V)) (s : Sdf V),
      (∀ o ∈ ops, match o with | .mutWrite _ _ => False | .mutWriteAt _ _ => False | _ => True) →
      (s.run locIdx ops).grid.oob = s.grid.oob ∧ (s.run locIdx ops).grid.dims = s.grid.dims := by
    intro ops
    induction ops with
    | nil => intro s _; exact ⟨rfl, rfl⟩
    | cons o ops ih =>
      intro s ho
      obtain ⟨h1, h2⟩ := ih (s.apply locIdx o).1 (fun o' h' => ho o' (List.mem_cons_of_mem _ h'))
      rw [Sdf.run_cons]
      refine ⟨h1.trans ?_, h2.trans (Sdf.apply_dims locIdx s o)⟩
      have := ho o List.mem_cons_self
      cases o <;> simp only [Sdf.apply, Sdf.lock, Sdf.unlock, Sdf.setValue, Sdf.setValueAt] at * <;>
        (repeat' split) <;> simp_all
  obtain ⟨h1, h2⟩ := key ops (Sdf.create d oob) hops
  have hb : d.inB i = false := by
    by_contra hc
    exact hi (inB_iff_spec.mp (by simpa using hc))
  have hd : (Sdf.create d oob).grid.dims = d := rfl
  simp only [Sdf.getImm, Grid.getImm, h2, hd, hb]
  rw [Grid.get_oob (by rw [h2]; exact hb), h1]; rfl

example : ∀ o ∈ [Sdf.Op.lock, .set ⟨9, 0, 0⟩ 3, .unlock, .setAt ⟨0, 0, 0⟩ 4],
    match (o : Sdf.Op Idx Nat) with
    | .mutWrite _ _ => False | .mutWriteAt _ _ => False | _ => True := by
  simp

/-- C03 is violated by fields too, and even a locked field: `GetMutable` on a locked field returns
a reference to the out-of-bounds value, so writing through it changes every out-of-bounds read. -/
theorem C03_sdf_locked_oob_can_change {P V : Type} (locIdx : P → Idx) (d : Dims) (oob v : V)
    (hv : v ≠ oob) (j i : Idx) (hi : ¬ InBounds d i) :
    ((Sdf.create d oob).run locIdx [.lock, .mutWrite j v]).getImm i = (v, false) ∧
      ((Sdf.create d oob).run locIdx [.lock, .mutWrite j v]).getImm i ≠ (oob, false) := by
  have hb : d.inB i = false := by
    by_contra hc
    exact hi (inB_iff_spec.mp (by simpa using hc))
  have e : ((Sdf.create d oob).run locIdx [.lock, .mutWrite j v]).getImm i = (v, false) := by
    simp [Sdf.run, Sdf.apply, Sdf.lock, Sdf.mutWrite, Sdf.create, Sdf.getImm, Grid.getImm, Grid.get,
      Grid.mk', hb]
  rw [e]
  exact ⟨rfl, by simpa using hv⟩

end Verif
