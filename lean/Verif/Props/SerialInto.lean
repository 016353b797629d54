import Verif.SerialInto
import Verif.Props.Serial

/-!
# C99: deserializing into an existing object
-/

namespace Verif

open Spec Serial

namespace Serial

/-- The assignments composed as one reader. -/
def chain {M : Type} : List (M → Reader M) → M → Reader M
  | [], m => pure m
  | s :: rest, m => Reader.bind (s m) (chain rest)

theorem runInto_chain {M : Type} (l : List (M → Reader M)) (m : M) (buf : List UInt8) (pos : Nat) :
    (∀ m' k, chain l m buf pos = some (m', k) → runInto l m buf pos = (m', some k)) ∧
    (chain l m buf pos = none → (runInto l m buf pos).2 = none) := by
  induction l generalizing m pos with
  | nil =>
    simp only [chain, runInto, pure, Option.some.injEq, Prod.mk.injEq]
    exact ⟨fun m' k h => ⟨h.1, h.2⟩, fun h => by simp at h⟩
  | cons s rest ih =>
    simp only [chain, runInto, Reader.bind]
    cases h : s m buf pos with
    | none => simp
    | some r =>
      obtain ⟨m', n⟩ := r
      obtain ⟨h1, h2⟩ := ih m' (pos + n)
      dsimp only
      cases hc : chain rest m' buf (pos + n) with
      | none => simp [h2 hc]
      | some q => simp [h1 q.1 q.2 hc]

theorem rbind_assoc {α β γ : Type} (r : Reader α) (f : α → Reader β) (g : β → Reader γ) :
    Reader.bind (Reader.bind r f) g = Reader.bind r fun a => Reader.bind (f a) g := by
  funext buf pos
  simp only [Reader.bind]
  cases r buf pos with
  | none => rfl
  | some x =>
    obtain ⟨a, n⟩ := x
    dsimp only
    cases f a buf (pos + n) with
    | none => rfl
    | some y =>
      obtain ⟨b, k⟩ := y
      dsimp only
      rw [Nat.add_assoc]
      cases g b buf (pos + (n + k)) with
      | none => rfl
      | some z => simp [Nat.add_assoc]

theorem rpure_bind {α β : Type} (a : α) (f : α → Reader β) :
    Reader.bind (pure a) f = f a := by
  funext buf pos
  show (match f a buf (pos + 0) with | none => none | some (b, k) => some (b, 0 + k)) = _
  simp only [Nat.add_zero, Nat.zero_add]
  cases f a buf pos <;> rfl

theorem ret_bind {α β γ : Type} (r : Reader α) (h : α → β) (f : β → Reader γ) :
    Reader.bind (Reader.bind r fun a => pure (h a)) f = Reader.bind r fun a => f (h a) := by
  rw [rbind_assoc]
  congr 1
  funext a
  exact rpure_bind _ _

theorem chain_cons {M β : Type} (get : Reader β) (set : M → β → M) (l : List (M → Reader M)) (m : M) :
    chain (assign get set :: l) m = Reader.bind get fun v => chain l (set m v) :=
  ret_bind get _ _

theorem chain_append {M : Type} (l l' : List (M → Reader M)) (m : M) :
    chain (l ++ l') m = Reader.bind (chain l m) (chain l') := by
  induction l generalizing m with
  | nil => exact (rpure_bind m _).symm
  | cons s l ih =>
    simp only [List.cons_append, chain]
    rw [rbind_assoc]
    congr 1
    funext a
    exact ih a

/-- Assignments to a part of the object. -/
theorem chain_map {M B : Type} (part : M → B) (set : M → B → M) (h1 : ∀ m, set m (part m) = m)
    (h2 : ∀ m b, part (set m b) = b) (h3 : ∀ m b c, set (set m b) c = set m c)
    (l : List (B → Reader B)) (m : M) :
    chain (l.map fun st m => Reader.bind (st (part m)) fun b => pure (set m b)) m =
      Reader.bind (chain l (part m)) fun b => pure (set m b) := by
  induction l generalizing m with
  | nil =>
    show _ = Reader.bind (pure (part m)) _
    rw [rpure_bind, h1]; rfl
  | cons s l ih =>
    simp only [List.map_cons, chain]
    rw [ret_bind, rbind_assoc]
    congr 1
    funext b
    rw [ih, h2]
    congr 1
    funext c
    rw [h3]

theorem base_chain {α : Type} (get : Reader α) (old : Base α) : chain (baseSteps get) old = readBase get old := by
  simp only [baseSteps, chain_cons]
  rfl

theorem sdf_chain (old : SdfRec) :
    chain ((baseSteps getU32).map (fun st s => do return { s with base := ← st s.base }) ++
      [assign getStr fun s v => { s with frame := v }, assign getBool fun s v => { s with locked := v }]) old =
    SdfRec.deserialize old := by
  rw [chain_append]
  have := chain_map (M := SdfRec) SdfRec.base (fun s b => { s with base := b }) (fun _ => rfl) (fun _ _ => rfl)
    (fun _ _ _ => rfl) (baseSteps getU32) old
  refine (congrArg (Reader.bind · _) this).trans ?_
  rw [ret_bind, base_chain]
  simp only [chain_cons]
  rfl

theorem cmap_chain (old : CMapRec) :
    chain ((baseSteps getCCell).map (fun st s => do return { s with base := ← st s.base }) ++
      [assign getU32 fun s v => { s with nComp := v }, assign getStr fun s v => { s with frame := v },
       assign getBool fun s v => { s with compValid := v }]) old = CMapRec.deserialize old := by
  rw [chain_append]
  have := chain_map (M := CMapRec) CMapRec.base (fun s b => { s with base := b }) (fun _ => rfl) (fun _ _ => rfl)
    (fun _ _ _ => rfl) (baseSteps getCCell) old
  refine (congrArg (Reader.bind · _) this).trans ?_
  rw [ret_bind, base_chain]
  simp only [chain_cons]
  rfl

theorem tmap_chain (old : TMapRec) :
    chain ((baseSteps getTCell).map (fun st s => do return { s with base := ← st s.base }) ++
      [assign getU32 fun s v => { s with nComp := v }, assign getU32 fun s v => { s with nSeg := v },
       assign getStr fun s v => { s with frame := v }, assign getBool fun s v => { s with compValid := v },
       assign getBool fun s v => { s with segValid := v }]) old = TMapRec.deserialize old := by
  rw [chain_append]
  have := chain_map (M := TMapRec) TMapRec.base (fun s b => { s with base := b }) (fun _ => rfl) (fun _ _ => rfl)
    (fun _ _ _ => rfl) (baseSteps getTCell) old
  refine (congrArg (Reader.bind · _) this).trans ?_
  rw [ret_bind, base_chain]
  simp only [chain_cons]
  rfl

theorem into_result {M : Type} {l : List (M → Reader M)} {m : M} {r : Reader M} (h : chain l m = r)
    (buf : List UInt8) (pos : Nat) :
    (runInto l m buf pos).2 = (r buf pos).map Prod.snd ∧
      ∀ m' k, r buf pos = some (m', k) → runInto l m buf pos = (m', some k) := by
  subst h
  obtain ⟨h1, h2⟩ := runInto_chain l m buf pos
  refine ⟨?_, h1⟩
  cases hc : chain l m buf pos with
  | none => rw [h2 hc]; rfl
  | some q => rw [h1 q.1 q.2 hc]; rfl

/-- An assignment keeps `P` whatever value is read. -/
def Keeps {M : Type} (P : M → Prop) (s : M → Reader M) : Prop :=
  ∀ m buf pos m' k, P m → s m buf pos = some (m', k) → P m'

theorem runInto_keeps {M : Type} {P : M → Prop} {l : List (M → Reader M)} (h : ∀ s ∈ l, Keeps P s) {m : M}
    (hm : P m) (buf : List UInt8) (pos : Nat) : P (runInto l m buf pos).1 := by
  induction l generalizing m pos with
  | nil => exact hm
  | cons s l ih =>
    simp only [runInto]
    cases hs : s m buf pos with
    | none => exact hm
    | some r =>
      exact ih (fun s' h' => h s' (List.mem_cons_of_mem _ h')) (h s List.mem_cons_self m buf pos r.1 r.2 hm hs) _

theorem runInto_append {M : Type} (l l' : List (M → Reader M)) (m : M) (buf : List UInt8) (pos : Nat) :
    (runInto l m buf pos).2 = none ∧ (runInto (l ++ l') m buf pos).1 = (runInto l m buf pos).1 ∨
    ∃ k, (runInto l m buf pos).2 = some k ∧
      (runInto (l ++ l') m buf pos).1 = (runInto l' (runInto l m buf pos).1 buf (pos + k)).1 := by
  induction l generalizing m pos with
  | nil => exact .inr ⟨0, rfl, rfl⟩
  | cons s l ih =>
    simp only [runInto, List.cons_append]
    cases hs : s m buf pos with
    | none => exact .inl ⟨rfl, rfl⟩
    | some r =>
      rcases ih r.1 (pos + r.2) with ⟨h1, h2⟩ | ⟨k, h1, h2⟩
      · left
        exact ⟨by simp [h1], h2⟩
      · right
        refine ⟨r.2 + k, by simp [h1], ?_⟩
        rw [← Nat.add_assoc]
        exact h2

/-- A reader that always consumes `n` bytes. -/
def Takes {α : Type} (r : Reader α) (n : Nat) : Prop := ∀ buf pos a k, r buf pos = some (a, k) → k = n

theorem takes_bind {α β : Type} {r : Reader α} {f : α → Reader β} {n k : Nat} (h1 : Takes r n)
    (h2 : ∀ a, Takes (f a) k) : Takes (Reader.bind r f) (n + k) := by
  intro buf pos b j h
  simp only [Reader.bind] at h
  cases hr : r buf pos with
  | none => rw [hr] at h; simp at h
  | some x =>
    rw [hr] at h
    dsimp only at h
    cases hf : f x.1 buf (pos + x.2) with
    | none => rw [hf] at h; simp at h
    | some y =>
      rw [hf] at h
      simp only [Option.some.injEq, Prod.mk.injEq] at h
      rw [← h.2, h1 _ _ _ _ hr, h2 _ _ _ _ _ hf]

theorem takes_pure {α : Type} (a : α) : Takes (pure a : Reader α) 0 := by
  intro buf pos b k h
  have : some (a, 0) = some (b, k) := h
  simp only [Option.some.injEq, Prod.mk.injEq] at this
  exact this.2.symm

theorem takes_pod (n : Nat) : Takes (getPod n) n := by
  intro buf pos a k h
  unfold getPod at h
  split at h
  · simp only [Option.some.injEq, Prod.mk.injEq] at h; exact h.2.symm
  · simp at h

theorem takes_u64 : Takes getU64 8 := takes_bind (takes_pod 8) fun _ => takes_pure _
theorem takes_bool : Takes getBool 1 :=
  takes_bind (n := 1) (takes_bind (takes_pod 1) fun _ => takes_pure _) fun _ => takes_pure _

theorem takes_many {α : Type} {get : Reader α} {n : Nat} (h : Takes get n) (m : Nat) :
    Takes (getMany get m) (n * m) := by
  induction m with
  | zero => exact takes_pure _
  | succ m ih =>
    have : n * (m + 1) = n + (n * m + 0) := by rw [Nat.mul_succ]; omega
    rw [this]
    exact takes_bind h fun _ => takes_bind ih fun _ => takes_pure _

theorem takes_iso : Takes getIso 128 := by
  intro buf pos a k h
  unfold getIso at h
  split at h
  · simp at h
  · rename_i h'
    simp only [Option.some.injEq, Prod.mk.injEq] at h
    rw [← h.2]
    exact takes_many takes_u64 16 _ _ _ _ h'

theorem assign_some {M β : Type} {get : Reader β} {set : M → β → M} {m m' : M} {buf : List UInt8} {pos k : Nat}
    (h : assign get set m buf pos = some (m', k)) : ∃ v, get buf pos = some (v, k) ∧ m' = set m v := by
  have h : Reader.bind get (fun v => pure (set m v)) buf pos = some (m', k) := h
  simp only [Reader.bind] at h
  cases hg : get buf pos with
  | none => rw [hg] at h; simp at h
  | some x =>
    rw [hg] at h
    have h : some (set m x.1, x.2 + 0) = some (m', k) := h
    simp only [Option.some.injEq, Prod.mk.injEq, Nat.add_zero] at h
    exact ⟨x.1, by rw [← h.2], h.1.symm⟩

theorem assign_none {M β : Type} {get : Reader β} {set : M → β → M} {m : M} {buf : List UInt8} {pos : Nat}
    (h : get buf pos = none) : assign get set m buf pos = none := by
  show Reader.bind get (fun v => pure (set m v)) buf pos = none
  simp only [Reader.bind, h]

theorem runInto_none {M : Type} {s : M → Reader M} {l : List (M → Reader M)} {m : M} {buf : List UInt8} {pos : Nat}
    (h : s m buf pos = none) : runInto (s :: l) m buf pos = (m, none) := by
  simp only [runInto, h]

theorem runInto_some {M : Type} {s : M → Reader M} {l : List (M → Reader M)} {m m' : M} {buf : List UInt8}
    {pos k : Nat} (h : s m buf pos = some (m', k)) : (runInto (s :: l) m buf pos).1 = (runInto l m' buf (pos + k)).1 ∧
      ((runInto l m' buf (pos + k)).2 = none → (runInto (s :: l) m buf pos).2 = none) := by
  simp only [runInto, h]
  exact ⟨trivial, fun h => by rw [h]; rfl⟩

/-- The first three assignments do not touch the cells and take 257 bytes. -/
theorem head_steps {α : Type} (get : Reader α) (old : Base α) (buf : List UInt8) (pos : Nat)
    (h : getVec get buf (pos + 257) = none) :
    (runInto (baseSteps get) old buf pos).2 = none ∧ ∃ i o v,
      (runInto (baseSteps get) old buf pos).1 = { old with initialized := i, origin := o, inverse := v } := by
  obtain ⟨rest, hrest⟩ : ∃ rest, baseSteps get =
      assign getBool (fun b v => { b with initialized := v }) ::
      assign getIso (fun b v => { b with origin := v }) ::
      assign getIso (fun b v => { b with inverse := v }) ::
      assign (getVec get) (fun b v => { b with data := v }) :: rest := ⟨_, rfl⟩
  rw [hrest]
  cases h1 : assign getBool (fun (b : Base α) v => { b with initialized := v }) old buf pos with
  | none => rw [runInto_none h1]; exact ⟨rfl, old.initialized, old.origin, old.inverse, rfl⟩
  | some r1 =>
    obtain ⟨b1, k1⟩ := r1
    obtain ⟨q1, n1⟩ := runInto_some (l := assign getIso (fun b v => { b with origin := v }) ::
      assign getIso (fun b v => { b with inverse := v }) ::
      assign (getVec get) (fun b v => { b with data := v }) :: rest) h1
    obtain ⟨v1, e1, hb1⟩ := assign_some h1
    have := takes_bool _ _ _ _ e1
    subst this
    rw [q1]
    cases h2 : assign getIso (fun (b : Base α) v => { b with origin := v }) b1 buf (pos + 1) with
    | none =>
      rw [runInto_none h2] at n1 ⊢
      exact ⟨n1 rfl, v1, old.origin, old.inverse, hb1⟩
    | some r2 =>
      obtain ⟨b2, k2⟩ := r2
      obtain ⟨q2, n2⟩ := runInto_some (l := assign getIso (fun b v => { b with inverse := v }) ::
        assign (getVec get) (fun b v => { b with data := v }) :: rest) h2
      obtain ⟨v2, e2, hb2⟩ := assign_some h2
      have := takes_iso _ _ _ _ e2
      subst this
      rw [q2]
      cases h3 : assign getIso (fun (b : Base α) v => { b with inverse := v }) b2 buf (pos + 1 + 128) with
      | none =>
        rw [runInto_none h3] at n2 ⊢
        exact ⟨n1 (n2 rfl), v1, v2, old.inverse, by rw [hb2, hb1]⟩
      | some r3 =>
        obtain ⟨b3, k3⟩ := r3
        obtain ⟨q3, n3⟩ := runInto_some (l := assign (getVec get) (fun b v => { b with data := v }) :: rest) h3
        obtain ⟨v3, e3, hb3⟩ := assign_some h3
        have := takes_iso _ _ _ _ e3
        subst this
        rw [q3]
        have h4 : assign (getVec get) (fun (b : Base α) v => { b with data := v }) b3 buf (pos + 1 + 128 + 128) = none :=
          assign_none (show getVec get buf (pos + 1 + 128 + 128) = none from h)
        rw [runInto_none h4] at n3 ⊢
        exact ⟨n1 (n2 (n3 rfl)), v1, v2, v3, by rw [hb3, hb2, hb1]⟩

/-- Assignments to a part of the object, as a program. -/
theorem runInto_map {M B : Type} (part : M → B) (set : M → B → M) (h1 : ∀ m, set m (part m) = m)
    (h2 : ∀ m b, part (set m b) = b) (h3 : ∀ m b c, set (set m b) c = set m c)
    (l : List (B → Reader B)) (m : M) (buf : List UInt8) (pos : Nat) :
    runInto (l.map fun st m => Reader.bind (st (part m)) fun b => pure (set m b)) m buf pos =
      (set m (runInto l (part m) buf pos).1, (runInto l (part m) buf pos).2) := by
  induction l generalizing m pos with
  | nil => simp [runInto, h1]
  | cons s l ih =>
    simp only [List.map_cons, runInto, Reader.bind]
    cases hs : s (part m) buf pos with
    | none => simp [h1]
    | some r =>
      show ((runInto _ (set m r.1) buf (pos + (r.2 + 0))).1, Option.map (r.2 + 0 + ·) _) = _
      simp only [Nat.add_zero]
      rw [ih, h2, h3]

theorem fails {M B : Type} {l l' : List (M → Reader M)} {m : M} {b : B} {n : Option Nat} {set : M → B → M}
    {buf : List UInt8} {pos : Nat} (hm : runInto l m buf pos = (set m b, n)) (hn : n = none) {P : Bool → Iso → Iso → B}
    {i : Bool} {o v : Iso} (hb : b = P i o v) :
    (runInto (l ++ l') m buf pos).2 = none ∧ ∃ i o v, (runInto (l ++ l') m buf pos).1 = set m (P i o v) := by
  subst hn hb
  have h2 : ∀ (l : List (M → Reader M)) (m : M) (pos : Nat), (runInto l m buf pos).2 = none →
      (runInto (l ++ l') m buf pos).2 = none := by
    intro l
    induction l with
    | nil => intro m pos h; simp [runInto] at h
    | cons s l ih =>
      intro m pos
      simp only [runInto, List.cons_append]
      cases hs : s m buf pos with
      | none => intro _; rfl
      | some r =>
        intro h
        simp only [Option.map_eq_none_iff] at h
        simp [ih _ _ h]
  refine ⟨h2 _ _ _ (by rw [hm]), i, o, v, ?_⟩
  rcases runInto_append l l' m buf pos with ⟨-, h⟩ | ⟨k, h, -⟩
  · rw [h, hm]
  · rw [hm] at h; simp at h

theorem sdf_any (a b : SdfRec) : SdfRec.deserialize a = SdfRec.deserialize b := rfl
theorem cmap_any (a b : CMapRec) : CMapRec.deserialize a = CMapRec.deserialize b := rfl
theorem tmap_any (a b : TMapRec) : TMapRec.deserialize a = TMapRec.deserialize b := rfl

end Serial

/-- C99 for success: the outcome of `DeserializeSelf` (bytes read or exception) and the object after a
success do not depend on the object it is called on. -/
theorem C99_replaces :
    (∀ (a b : SdfRec) (buf : List UInt8) (pos : Nat), (a.into buf pos).2 = (b.into buf pos).2 ∧
      ((a.into buf pos).2 ≠ none → (a.into buf pos).1 = (b.into buf pos).1)) ∧
    (∀ (a b : CMapRec) (buf : List UInt8) (pos : Nat), (a.into buf pos).2 = (b.into buf pos).2 ∧
      ((a.into buf pos).2 ≠ none → (a.into buf pos).1 = (b.into buf pos).1)) ∧
    (∀ (a b : TMapRec) (buf : List UInt8) (pos : Nat), (a.into buf pos).2 = (b.into buf pos).2 ∧
      ((a.into buf pos).2 ≠ none → (a.into buf pos).1 = (b.into buf pos).1)) := by
  have key : ∀ {M : Type} {la lb : List (M → Reader M)} {a b : M} {r : Reader M} (_ : chain la a = r)
      (_ : chain lb b = r) (buf : List UInt8) (pos : Nat),
      (runInto la a buf pos).2 = (runInto lb b buf pos).2 ∧
      ((runInto la a buf pos).2 ≠ none → (runInto la a buf pos).1 = (runInto lb b buf pos).1) := by
    intro M la lb a b r ha hb buf pos
    obtain ⟨a1, a2⟩ := into_result ha buf pos
    obtain ⟨b1, b2⟩ := into_result hb buf pos
    refine ⟨a1.trans b1.symm, fun hn => ?_⟩
    cases hr : r buf pos with
    | none => rw [a1, hr] at hn; simp at hn
    | some q => rw [a2 q.1 q.2 hr, b2 q.1 q.2 hr]
  exact ⟨fun a b => key (sdf_chain a) ((sdf_chain b).trans (sdf_any b a)),
    fun a b => key (cmap_chain a) ((cmap_chain b).trans (cmap_any b a)),
    fun a b => key (tmap_chain a) ((tmap_chain b).trans (tmap_any b a))⟩

/-- C99 for written objects: reading what `SerializeSelf` wrote, at any place of a buffer and into any object,
gives the written object and the number of bytes. -/
theorem C99_reads_back :
    (∀ (s old : SdfRec) (pre post : List UInt8), FitsMemory s.base.data → FitsMemory s.frame →
      old.into (pre ++ (s.serialize []).1 ++ post) pre.length = (s, some (s.serialize []).2)) ∧
    (∀ (s old : CMapRec) (pre post : List UInt8), FitsMemory s.base.data → FitsMemory s.frame →
      old.into (pre ++ (s.serialize []).1 ++ post) pre.length = (s, some (s.serialize []).2)) ∧
    (∀ (s old : TMapRec) (pre post : List UInt8), FitsMemory s.base.data → FitsMemory s.frame →
      old.into (pre ++ (s.serialize []).1 ++ post) pre.length = (s, some (s.serialize []).2)) := by
  refine ⟨fun s old pre post h1 h2 => ?_, fun s old pre post h1 h2 => ?_, fun s old pre post h1 h2 => ?_⟩
  · have hs : s.serialize [] = (s.bytes, s.bytes.length) := appendPieces_eq _ _
    rw [hs]
    exact (into_result (sdf_chain old) _ _).2 _ _ (reads_sdf s old h1 h2 pre post)
  · have hs : s.serialize [] = (s.bytes, s.bytes.length) := appendPieces_eq _ _
    rw [hs]
    exact (into_result (cmap_chain old) _ _).2 _ _ (reads_cmap s old h1 h2 pre post)
  · have hs : s.serialize [] = (s.bytes, s.bytes.length) := appendPieces_eq _ _
    rw [hs]
    exact (into_result (tmap_chain old) _ _).2 _ _ (reads_tmap s old h1 h2 pre post)

/-- C99 as stated, for failures: an exception leaves the object unchanged. -/
def C99Statement : Prop :=
  ∀ (old : SdfRec) (buf : List UInt8) (pos : Nat), (old.into buf pos).2 = none → (old.into buf pos).1 = old

/-- A field of 2 x 1 x 1 cells. -/
def intoOld : SdfRec := ⟨{ blankBase 0 with numX := 2, numY := 1, numZ := 1, data := [1, 2] }, [], false⟩
/-- A field of 1 x 1 x 1 cells. -/
def intoNew : SdfRec := ⟨{ blankBase 0 with numX := 1, numY := 1, numZ := 1, data := [5] }, [], false⟩

/-- C99 is violated: reading a buffer that ends after the cells throws, and the object is then left with the
cells of the buffer and its own old cell counts, so that valid indices lie outside of the storage. -/
theorem C99_torn : ¬ C99Statement ∧ ∃ (old : SdfRec) (buf : List UInt8), Consistent old.base ∧
    (old.into buf 0).2 = none ∧ ¬ Consistent (old.into buf 0).1.base := by
  have h : Consistent intoOld.base ∧ (intoOld.into ((intoNew.serialize []).1.take 300) 0).2 = none ∧
      ¬ Consistent (intoOld.into ((intoNew.serialize []).1.take 300) 0).1.base := by
    unfold Consistent
    decide +kernel
  refine ⟨fun hs => h.2.2 ?_, _, _, h⟩
  rw [hs _ _ _ h.2.1]
  exact h.1

/-- C99 (part), failures.  If the cells cannot be read (the buffer ends before the end of the list of cells,
which starts 257 bytes after the given position) the read throws and leaves the cells, their number, the frame and the
other members as they were, except for the flag `initialized` and the two transforms.
Missing: failures after the cells (`C99_torn`), and the transforms. -/
theorem C99_cut_in_cells_partial :
    (∀ (old : SdfRec) (buf : List UInt8) (pos : Nat), getVec getU32 buf (pos + 257) = none →
      (old.into buf pos).2 = none ∧ ∃ i o v,
        (old.into buf pos).1 = { old with base := { old.base with initialized := i, origin := o, inverse := v } }) ∧
    (∀ (old : CMapRec) (buf : List UInt8) (pos : Nat), getVec getCCell buf (pos + 257) = none →
      (old.into buf pos).2 = none ∧ ∃ i o v,
        (old.into buf pos).1 = { old with base := { old.base with initialized := i, origin := o, inverse := v } }) ∧
    (∀ (old : TMapRec) (buf : List UInt8) (pos : Nat), getVec getTCell buf (pos + 257) = none →
      (old.into buf pos).2 = none ∧ ∃ i o v,
        (old.into buf pos).1 = { old with base := { old.base with initialized := i, origin := o, inverse := v } }) := by
  refine ⟨fun old buf pos h => ?_, fun old buf pos h => ?_, fun old buf pos h => ?_⟩
  · obtain ⟨hn, i, o, v, hb⟩ := head_steps getU32 old.base buf pos h
    have hm := runInto_map (M := SdfRec) SdfRec.base (fun s b => { s with base := b }) (fun _ => rfl)
      (fun _ _ => rfl) (fun _ _ _ => rfl) (baseSteps getU32) old buf pos
    exact fails (set := fun (s : SdfRec) b => { s with base := b })
      (P := fun i o v => { old.base with initialized := i, origin := o, inverse := v }) hm hn hb
  · obtain ⟨hn, i, o, v, hb⟩ := head_steps getCCell old.base buf pos h
    have hm := runInto_map (M := CMapRec) CMapRec.base (fun s b => { s with base := b }) (fun _ => rfl)
      (fun _ _ => rfl) (fun _ _ _ => rfl) (baseSteps getCCell) old buf pos
    exact fails (set := fun (s : CMapRec) b => { s with base := b })
      (P := fun i o v => { old.base with initialized := i, origin := o, inverse := v }) hm hn hb
  · obtain ⟨hn, i, o, v, hb⟩ := head_steps getTCell old.base buf pos h
    have hm := runInto_map (M := TMapRec) TMapRec.base (fun s b => { s with base := b }) (fun _ => rfl)
      (fun _ _ => rfl) (fun _ _ _ => rfl) (baseSteps getTCell) old buf pos
    exact fails (set := fun (s : TMapRec) b => { s with base := b })
      (P := fun i o v => { old.base with initialized := i, origin := o, inverse := v }) hm hn hb

/-- C99 for files and messages: what `LoadFromFile` and `LoadFromMessageRepresentation` return does not depend
on the object that is filled. -/
theorem C99_loads (z : Zlib) (file : Option (List UInt8)) (msg : Serial.Msg) :
    (∀ b, { sdfFormat with blank := b }.load z file = sdfFormat.load z file ∧
      { sdfFormat with blank := b }.ofMsg z msg = sdfFormat.ofMsg z msg) ∧
    (∀ b, { cmapFormat with blank := b }.load z file = cmapFormat.load z file ∧
      { cmapFormat with blank := b }.ofMsg z msg = cmapFormat.ofMsg z msg) ∧
    (∀ b, { tmapFormat with blank := b }.load z file = tmapFormat.load z file ∧
      { tmapFormat with blank := b }.ofMsg z msg = tmapFormat.ofMsg z msg) :=
  ⟨fun _ => ⟨rfl, rfl⟩, fun _ => ⟨rfl, rfl⟩, fun _ => ⟨rfl, rfl⟩⟩

/-! ### The hypotheses are satisfiable -/

example : FitsMemory exSdfRec.base.data ∧ FitsMemory exSdfRec.frame ∧
    (intoOld.into ((exSdfRec.serialize []).1 ++ [7]) 0) = (exSdfRec, some 407) := by
  refine ⟨?_, ?_, ?_⟩ <;> first | decide +kernel | (unfold FitsMemory; decide +kernel)

example : getVec getU32 ((exSdfRec.serialize []).1.take 270) (0 + 257) = none ∧
    (intoOld.into ((exSdfRec.serialize []).1.take 270) 0).1.base.data = [1, 2] ∧
    (intoOld.into ((exSdfRec.serialize []).1.take 270) 0).1.base.initialized = true ∧
    intoOld.base.initialized = false := by
  decide +kernel

end Verif
