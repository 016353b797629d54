import Verif.TaggedDisplay
import Verif.Props.TaggedSdf

/-!
# Properties of the display exports of tagged maps (C44, C63, C64)
-/

namespace Verif

open Spec SdfGen

/-! ## What a display must show -/

/-- Object id of a cell. -/
def objAt (m : TMap) (i : Idx) : UInt32 := ((m.getImm i).1).obj

/-- The markers show exactly the cells `vis`, each in the single marker of its object, with the
object's colour, in scan order. -/
structure ShowsByObject {P C : Type} (m : TMap) (vis : Idx → Prop) (col : UInt32 → C) (loc : Idx → P)
    (r : List (DMarker P C)) : Prop where
  /-- one marker per object -/
  nodup : (r.map DMarker.ns).Nodup
  /-- every marker shows the visible cells of its object in scan order, at least one -/
  content : ∀ w ∈ r, ∃ cells : List Idx, cells.Sublist m.dims.all ∧
    (∀ i, i ∈ cells ↔ InBounds m.dims i ∧ objAt m i = w.ns ∧ vis i) ∧ cells ≠ [] ∧
    w.points = cells.map loc ∧ w.colors = cells.map fun i => col (objAt m i)
  /-- every visible cell's object has a marker -/
  complete : ∀ i, InBounds m.dims i → vis i → ∃ w ∈ r, w.ns = objAt m i

/-- A single marker shows exactly the cells `vis`, in scan order, with the given colours. -/
def ShowsCells {P C : Type} (m : TMap) (vis : Idx → Prop) (col : Idx → C) (loc : Idx → P)
    (r : List P × List C) : Prop :=
  ∃ cells : List Idx, cells.Sublist m.dims.all ∧ (∀ i, i ∈ cells ↔ InBounds m.dims i ∧ vis i) ∧
    r.1 = cells.map loc ∧ r.2 = cells.map col

namespace TMap

variable {P C : Type}

/-- The marker of object `id` after the cells `l`. -/
def full (key : Idx → UInt32) (vis : Idx → Bool) (col : UInt32 → C) (loc : Idx → P) (l : List Idx)
    (id : UInt32) : DMarker P C :=
  ⟨id, (l.filter fun i => key i == id && vis i).map loc,
    (l.filter fun i => key i == id && vis i).map fun i => col (key i)⟩

structure DInv (key : Idx → UInt32) (vis : Idx → Bool) (col : UInt32 → C) (loc : Idx → P)
    (l : List Idx) (st : DState P C) : Prop where
  ref : ∀ id k, OMap.find id st.idx = some k →
    st.markers[k.toNat]? = some (full key vis col loc l id)
  back : ∀ (k : Nat) w, st.markers[k]? = some w → w.points = [] ∨
    ∃ k' : UInt32, k'.toNat = k ∧ OMap.find w.ns st.idx = some k'
  cover : ∀ i ∈ l, vis i = true → (OMap.find (key i) st.idx).isSome = true
  sorted : OMap.Sorted st.idx

variable {key : Idx → UInt32} {vis : Idx → Bool} {col : UInt32 → C} {loc : Idx → P} {l : List Idx}
  {st : DState P C}

theorem DInv.skip (h : DInv key vis col loc l st) {i : Idx} (hi : vis i = false) :
    DInv key vis col loc (l ++ [i]) st := by
  have e : ∀ id, full key vis col loc (l ++ [i]) id = full key vis col loc l id := by
    intro id; unfold full; simp [hi]
  refine ⟨fun id k hk => by rw [e]; exact h.ref id k hk, h.back, ?_, h.sorted⟩
  intro j hj hv
  rcases List.mem_append.mp hj with hj | hj
  · exact h.cover j hj hv
  · rw [List.mem_singleton] at hj; subst hj; rw [hi] at hv; simp at hv

theorem DInv.point (h : DInv key vis col loc l st) {i : Idx} (hi : vis i = true) {k : UInt32}
    (hk : OMap.find (key i) st.idx = some k) :
    ∃ st', addPoint st k (loc i) (col (key i)) = some st' ∧ st'.idx = st.idx ∧
      st'.markers.length = st.markers.length ∧ DInv key vis col loc (l ++ [i]) st' := by
  have hr := h.ref _ _ hk
  have hlt : k.toNat < st.markers.length := by
    by_contra hn
    rw [List.getElem?_eq_none (by omega)] at hr
    simp at hr
  refine ⟨⟨st.idx, st.markers.set k.toNat ⟨(full key vis col loc l (key i)).ns,
    (full key vis col loc l (key i)).points ++ [loc i],
    (full key vis col loc l (key i)).colors ++ [col (key i)]⟩⟩,
    by unfold addPoint; rw [hr], rfl, by simp, ?_, ?_, ?_, h.sorted⟩
  · intro id k' hk'
    dsimp only at hk'
    by_cases hid : id = key i
    · subst hid
      rw [hk] at hk'
      simp only [Option.some.injEq] at hk'
      subst hk'
      dsimp only
      rw [List.getElem?_set_self hlt]
      unfold full
      simp [hi]
    · have hr' := h.ref _ _ hk'
      have hne : k.toNat ≠ k'.toNat := by
        intro e
        rw [← e, hr] at hr'
        simp only [Option.some.injEq] at hr'
        exact hid (congrArg DMarker.ns hr').symm
      dsimp only
      rw [List.getElem?_set_ne hne, hr']
      unfold full
      have : (key i == id) = false := by simpa using fun e => hid e.symm
      simp [this]
  · intro k' w hw
    dsimp only at hw ⊢
    by_cases hkk : k.toNat = k'
    · subst hkk
      rw [List.getElem?_set_self hlt] at hw
      simp only [Option.some.injEq] at hw
      subst hw
      exact Or.inr ⟨k, rfl, hk⟩
    · rw [List.getElem?_set_ne hkk] at hw
      exact h.back _ _ hw
  · intro j hj hv
    rcases List.mem_append.mp hj with hj | hj
    · exact h.cover j hj hv
    · rw [List.mem_singleton] at hj; subst hj; dsimp only; rw [hk]; rfl

theorem DInv.push (h : DInv key vis col loc l st) {id k : UInt32}
    (hk : k.toNat = st.markers.length) (hnone : ∀ i ∈ l, vis i = true → key i ≠ id) :
    DInv key vis col loc l (pushMarker st id k) := by
  have hempty : full key vis col loc l id = ⟨id, [], []⟩ := by
    have : (l.filter fun i => key i == id && vis i) = [] := by
      rw [List.filter_eq_nil_iff]
      intro i hi he
      simp only [Bool.and_eq_true, beq_iff_eq] at he
      exact hnone i hi he.2 he.1
    unfold full; rw [this]; rfl
  refine ⟨?_, ?_, ?_, OMap.sorted_insert _ _ _ h.sorted⟩
  · intro id' k' hk'
    unfold pushMarker at hk' ⊢
    dsimp only at hk' ⊢
    rw [OMap.find_insert] at hk'
    by_cases hid : id = id'
    · subst hid
      simp only [if_true, Option.some.injEq] at hk'
      subst hk'
      rw [hk, List.getElem?_append_right (Nat.le_refl _), hempty]
      simp
    · rw [if_neg hid] at hk'
      have hr := h.ref _ _ hk'
      have hlt : k'.toNat < st.markers.length := by
        by_contra hn
        rw [List.getElem?_eq_none (by omega)] at hr
        simp at hr
      rw [List.getElem?_append_left hlt]
      exact hr
  · intro k' w hw
    unfold pushMarker at hw ⊢
    dsimp only at hw ⊢
    by_cases hlt : k' < st.markers.length
    · rw [List.getElem?_append_left hlt] at hw
      rcases h.back _ _ hw with h0 | ⟨k'', e1, e2⟩
      · exact Or.inl h0
      · have hr := h.ref _ _ e2
        rw [e1, hw] at hr
        simp only [Option.some.injEq] at hr
        by_cases hid : w.ns = id
        · left
          rw [hr, hid, hempty]
        · right
          refine ⟨k'', e1, ?_⟩
          rw [OMap.find_insert, if_neg (fun e => hid e.symm)]
          exact e2
    · rw [List.getElem?_append_right (by omega)] at hw
      left
      have hk0 : k' - st.markers.length = 0 := by
        by_contra hn
        rw [List.getElem?_eq_none (by simp; omega)] at hw
        simp at hw
      rw [hk0] at hw
      simp at hw
      rw [← hw]
  · intro i hi hv
    unfold pushMarker
    dsimp only
    rw [OMap.find_insert]
    split
    · rfl
    · exact h.cover i hi hv

theorem DInv.shows {m : TMap} (hkey : ∀ i, key i = objAt m i)
    (h : DInv key vis col loc m.dims.all st) :
    ShowsByObject m (fun i => vis i = true) col loc (prune st.markers) := by
  have hprune : ∀ w, w ∈ prune st.markers ↔ w.points ≠ [] ∧ ∃ k : Nat, st.markers[k]? = some w := by
    intro w
    unfold prune
    rw [List.mem_filter, List.mem_iff_getElem?]
    constructor
    · rintro ⟨h1, h2⟩; exact ⟨by simpa using h2, h1⟩
    · rintro ⟨h1, h2⟩; exact ⟨h2, by simpa using h1⟩
  have hfull : ∀ w, w.points ≠ [] → ∀ k : Nat, st.markers[k]? = some w →
      w = full key vis col loc m.dims.all w.ns := by
    intro w hp k hk
    rcases h.back k w hk with h0 | ⟨k', e1, e2⟩
    · exact absurd h0 hp
    · have := h.ref _ _ e2
      rw [e1, hk] at this
      simpa using this
  have hcol : (fun i => col (key i)) = fun i => col (objAt m i) := by funext i; rw [hkey]
  refine ⟨?_, ?_, ?_⟩
  · rw [List.Nodup, List.pairwise_map]
    unfold prune
    rw [List.pairwise_filter, List.pairwise_iff_getElem]
    intro i j hi hj hij p1 p2 e
    have g1 : st.markers[i]? = some st.markers[i] := List.getElem?_eq_getElem hi
    have g2 : st.markers[j]? = some st.markers[j] := List.getElem?_eq_getElem hj
    have n1 : st.markers[i].points ≠ [] := by simpa using p1
    have n2 : st.markers[j].points ≠ [] := by simpa using p2
    rcases h.back _ _ g1 with h0 | ⟨k1, a1, a2⟩
    · exact n1 h0
    rcases h.back _ _ g2 with h0 | ⟨k2, b1, b2⟩
    · exact n2 h0
    rw [e, b2] at a2
    simp only [Option.some.injEq] at a2
    subst a2
    omega
  · intro w hw
    obtain ⟨hp, k, hk⟩ := (hprune w).mp hw
    have hf := hfull w hp k hk
    refine ⟨m.dims.all.filter fun i => key i == w.ns && vis i, List.filter_sublist, ?_, ?_, ?_, ?_⟩
    · intro i
      rw [List.mem_filter, Dims.mem_all, inB_iff_spec]
      simp only [Bool.and_eq_true, beq_iff_eq, hkey]
    · intro h0
      apply hp
      rw [hf]
      unfold full
      dsimp only
      rw [h0]; rfl
    · exact congrArg DMarker.points hf
    · rw [← hcol]; exact congrArg DMarker.colors hf
  · intro i hi hv
    have hmem : i ∈ m.dims.all := Dims.mem_all.mpr (inB_iff_spec.mpr hi)
    obtain ⟨k, hk⟩ := Option.isSome_iff_exists.mp (h.cover i hmem hv)
    refine ⟨_, (hprune _).mpr ⟨?_, _, h.ref _ _ hk⟩, hkey i⟩
    have : i ∈ m.dims.all.filter fun j => key j == key i && vis j := by
      rw [List.mem_filter]; exact ⟨hmem, by simp [hv]⟩
    unfold full
    dsimp only
    intro h0
    rw [List.map_eq_nil_iff] at h0
    rw [h0] at this
    simp at this

/-! ### Initial markers -/

theorem listMarkers_inv (key : Idx → UInt32) (vis : Idx → Bool) (col : UInt32 → C) (loc : Idx → P)
    {objs : List UInt32} (hlen : objs.length ≤ 2 ^ 32) :
    DInv key vis col loc [] (listMarkers objs) ∧
      (∀ id, (OMap.find id (listMarkers (P := P) (C := C) objs).idx).isSome = true ↔ id ∈ objs) ∧
      (objs.Nodup → (listMarkers (P := P) (C := C) objs).idx.length
        = (listMarkers (P := P) (C := C) objs).markers.length) := by
  have go : ∀ (l : List UInt32) (st : DState P C) (seen : List UInt32),
      st.markers.length + l.length ≤ 2 ^ 32 → DInv key vis col loc [] st →
      (∀ id, (OMap.find id st.idx).isSome = true ↔ id ∈ seen) →
      DInv key vis col loc []
        (l.foldl (fun st id => pushMarker st id (UInt32.ofNat st.markers.length)) st) ∧
      (∀ id, (OMap.find id
        (l.foldl (fun st id => pushMarker st id (UInt32.ofNat st.markers.length)) st).idx).isSome = true
          ↔ id ∈ seen ++ l) ∧
      ((seen ++ l).Nodup → st.idx.length = st.markers.length →
        (l.foldl (fun st id => pushMarker st id (UInt32.ofNat st.markers.length)) st).idx.length =
        (l.foldl (fun st id => pushMarker st id (UInt32.ofNat st.markers.length)) st).markers.length) := by
    intro l
    induction l with
    | nil => intro st seen _ h hs; exact ⟨h, by simpa using hs, fun _ h => h⟩
    | cons a l ih =>
      intro st seen hl h hs
      simp only [List.length_cons] at hl
      simp only [List.foldl_cons]
      have hk : (UInt32.ofNat st.markers.length).toNat = st.markers.length := by
        rw [UInt32.toNat_ofNat']
        exact Nat.mod_eq_of_lt (by omega)
      have h' : DInv key vis col loc [] (pushMarker st a (UInt32.ofNat st.markers.length)) :=
        h.push hk (by simp)
      have hlen' : (pushMarker st a (UInt32.ofNat st.markers.length)).markers.length
          = st.markers.length + 1 := by simp [pushMarker]
      have hs' : ∀ id, (OMap.find id
          (pushMarker st a (UInt32.ofNat st.markers.length)).idx).isSome = true ↔ id ∈ seen ++ [a] := by
        intro id
        unfold pushMarker
        dsimp only
        rw [OMap.find_insert, List.mem_append, List.mem_singleton]
        by_cases e : a = id
        · simp [e]
        · rw [if_neg e, hs]
          constructor
          · exact Or.inl
          · rintro (h | h)
            · exact h
            · exact absurd h.symm e
      obtain ⟨i1, i2, i3⟩ := ih _ (seen ++ [a]) (by omega) h' hs'
      refine ⟨i1, by simpa using i2, fun hnd heq => ?_⟩
      apply i3 (by simpa using hnd)
      rw [hlen', ← heq]
      apply OMap.length_insert
      have hns : a ∉ seen := by
        intro hmem
        rw [List.nodup_append] at hnd
        exact hnd.2.2 a hmem a (List.mem_cons_self ..) rfl
      have := mt (hs a).mp hns
      simpa using this
  obtain ⟨h1, h2, h3⟩ := go objs ⟨[], []⟩ [] (by simpa using hlen)
    ⟨by simp [OMap.find], by simp, by simp, by simp [OMap.Sorted, OMap.keys]⟩ (by simp [OMap.find])
  exact ⟨h1, fun id => (h2 id).trans (by simp), fun hnd => h3 (by simpa using hnd) rfl⟩

/-! ### The loops -/

/-- Adding a marker on first sight keeps the invariant. -/
theorem DInv.ensure (h : DInv key vis col loc l st) {id : UInt32}
    (hlen : st.idx.length = st.markers.length) (hn : OMap.find id st.idx = none) :
    DInv key vis col loc l (pushMarker st id (UInt32.ofNat st.idx.length)) ∧
      (pushMarker st id (UInt32.ofNat st.idx.length)).idx.length =
        (pushMarker st id (UInt32.ofNat st.idx.length)).markers.length := by
  have hlt := OMap.length_lt h.sorted hn
  have hk : (UInt32.ofNat st.idx.length).toNat = st.markers.length := by
    rw [UInt32.toNat_ofNat', ← hlen]
    exact Nat.mod_eq_of_lt hlt
  refine ⟨h.push hk ?_, ?_⟩
  · rintro i hi hv rfl
    have := h.cover i hi hv
    rw [hn] at this
    simp at this
  · unfold pushMarker
    dsimp only
    rw [OMap.length_insert _ _ hn, hlen]
    simp

theorem foldlM_inv {σ : Type} (f : σ → Idx → Option σ) (I : List Idx → σ → Prop)
    (step : ∀ l i s, I l s → ∃ s', f s i = some s' ∧ I (l ++ [i]) s') :
    ∀ (l : List Idx) (pre : List Idx) (s : σ), I pre s →
      ∃ s', l.foldlM f s = some s' ∧ I (pre ++ l) s' := by
  intro l
  induction l with
  | nil => intro pre s h; exact ⟨s, rfl, by simpa using h⟩
  | cons a l ih =>
    intro pre s h
    obtain ⟨s1, e1, h1⟩ := step pre a s h
    obtain ⟨s2, e2, h2⟩ := ih _ _ h1
    refine ⟨s2, ?_, by simpa using h2⟩
    rw [List.foldlM_cons, e1]
    exact e2

/-- Cells drawn by the list overload. -/
def visList (m : TMap) (gen : UInt32 → C) (shown : C → Bool) (objs : List UInt32) (i : Idx) : Bool :=
  (objs.contains (objAt m i) || (objs.isEmpty && objAt m i != 0)) && shown (gen (objAt m i))

theorem unique_loop (gen : UInt32 → C) (shown : C → Bool) (loc : Idx → P) (m : TMap)
    {objs : List UInt32} (hlen : objs.length ≤ 2 ^ 32) :
    ∃ st, m.dims.all.foldlM (stepUnique gen shown loc m objs.isEmpty) (listMarkers objs) = some st ∧
      DInv (objAt m) (visList m gen shown objs) gen loc m.dims.all st := by
  let I : List Idx → DState P C → Prop := fun l st =>
    DInv (objAt m) (visList m gen shown objs) gen loc l st ∧
    (objs.isEmpty = true → st.idx.length = st.markers.length ∧
      OMap.find 0 st.idx = none) ∧
    (objs.isEmpty = false → ∀ id, (OMap.find id st.idx).isSome = true ↔ id ∈ objs)
  have step : ∀ l i s, I l s →
      ∃ s', stepUnique gen shown loc m objs.isEmpty s i = some s' ∧ I (l ++ [i]) s' := by
    rintro l i s ⟨h1, h2, h3⟩
    have hobj : (m.grid.get i).obj = objAt m i := rfl
    unfold stepUnique
    rw [hobj]
    cases he : objs.isEmpty with
    | false =>
      have h3' := h3 he
      simp only [Bool.false_and, Bool.false_eq_true, if_false]
      cases hf : OMap.find (objAt m i) s.idx with
      | none =>
        have hni : objAt m i ∉ objs := by
          intro hm
          have := (h3' _).mpr hm
          rw [hf] at this; simp at this
        have hv : visList m gen shown objs i = false := by
          unfold visList; simp [hni, he]
        exact ⟨s, rfl, h1.skip hv, fun h => by rw [he] at h; simp at h, fun _ => h3'⟩
      | some k =>
        have hin : objAt m i ∈ objs := (h3' _).mp (by rw [hf]; rfl)
        have hv : visList m gen shown objs i = shown (gen (objAt m i)) := by
          unfold visList; simp [hin]
        dsimp only
        by_cases hs : shown (gen (objAt m i)) = true
        · rw [if_pos hs]
          obtain ⟨st', e, hi, _, hinv⟩ := h1.point (hv.trans hs) hf
          exact ⟨st', e, hinv, fun h => by rw [he] at h; simp at h, fun _ => by rw [hi]; exact h3'⟩
        · rw [if_neg hs]
          exact ⟨s, rfl, h1.skip (hv.trans (by simpa using hs)), fun h => by rw [he] at h; simp at h,
            fun _ => h3'⟩
    | true =>
      obtain ⟨h2a, h2b⟩ := h2 he
      have hnil : objs = [] := by simpa using he
      have hnmem : objs.contains (objAt m i) = false := by rw [hnil]; rfl
      -- the state after a possible new marker
      have key : ∀ s : DState P C, DInv (objAt m) (visList m gen shown objs) gen loc l s →
          s.idx.length = s.markers.length → OMap.find 0 s.idx = none →
          (objAt m i ≠ 0 → (OMap.find (objAt m i) s.idx).isSome = true) →
          ∃ s', (match OMap.find (objAt m i) s.idx with
            | none => some s
            | some k => if shown (gen (objAt m i)) then addPoint s k (loc i) (gen (objAt m i))
              else some s) = some s' ∧ I (l ++ [i]) s' := by
        intro s g1 g2 g3 g4
        cases hf : OMap.find (objAt m i) s.idx with
        | none =>
          have h0 : objAt m i = 0 := by
            by_contra hn
            have := g4 hn
            rw [hf] at this; simp at this
          have hv : visList m gen shown objs i = false := by
            unfold visList; rw [hnmem, h0]; simp
          exact ⟨s, rfl, g1.skip hv, fun _ => ⟨g2, g3⟩, fun h => by rw [he] at h; simp at h⟩
        | some k =>
          have h0 : objAt m i ≠ 0 := by
            intro hn; rw [hn, g3] at hf; simp at hf
          have hv : visList m gen shown objs i = shown (gen (objAt m i)) := by
            unfold visList; simp [he, h0]
          dsimp only
          by_cases hs : shown (gen (objAt m i)) = true
          · rw [if_pos hs]
            obtain ⟨st', e, hi, hml, hinv⟩ := g1.point (hv.trans hs) hf
            exact ⟨st', e, hinv, fun _ => ⟨by rw [hi, hml]; exact g2, by rw [hi]; exact g3⟩,
              fun h => by rw [he] at h; simp at h⟩
          · rw [if_neg hs]
            exact ⟨s, rfl, g1.skip (hv.trans (by simpa using hs)), fun _ => ⟨g2, g3⟩,
              fun h => by rw [he] at h; simp at h⟩
      by_cases hb : (true && objAt m i != 0 && (OMap.find (objAt m i) s.idx).isNone) = true
      · simp only [hb, if_true]
        simp only [Bool.true_and, Bool.and_eq_true, bne_iff_ne, ne_eq,
          Option.isNone_iff_eq_none] at hb
        obtain ⟨e1, e2⟩ := h1.ensure h2a hb.2
        refine key _ e1 e2 ?_ ?_
        · unfold pushMarker; dsimp only; rw [OMap.find_insert, if_neg hb.1]; exact h2b
        · intro _; unfold pushMarker; dsimp only; rw [OMap.find_insert]; simp
      · dsimp only
        rw [if_neg hb]
        refine key s h1 h2a h2b ?_
        intro h0
        simpa [h0, Option.isSome_iff_ne_none] using hb
  obtain ⟨i1, i2, i3⟩ := listMarkers_inv (objAt m) (visList m gen shown objs) gen loc hlen
  obtain ⟨st, e, h⟩ := foldlM_inv _ I step m.dims.all [] (listMarkers objs)
    ⟨i1, fun he => by
      have hnil : objs = [] := by simpa using he
      subst hnil; exact ⟨rfl, rfl⟩, fun _ => i2⟩
  exact ⟨st, e, by simpa using h.1⟩

end TMap

/-- C44, list overload.  For every map, list of objects (duplicates allowed) and colour generator
`ExportForDisplayUniqueNs` returns without indexing out of range; it shows, in one marker per object,
exactly the cells of the listed objects (of all objects with nonzero id if the list is empty) whose
colour has positive alpha. -/
theorem C44_list {P C : Type} (gen : UInt32 → C) (shown : C → Bool) (loc : Idx → P) (m : TMap)
    {objs : List UInt32} (hlen : objs.length ≤ 2 ^ 32) :
    ∃ r, m.exportUnique gen shown loc objs = some r ∧
      ShowsByObject m (fun i => (objAt m i ∈ objs ∨ (objs = [] ∧ objAt m i ≠ 0)) ∧
        shown (gen (objAt m i)) = true) gen loc r := by
  obtain ⟨st, e, h⟩ := TMap.unique_loop gen shown loc m hlen
  refine ⟨TMap.prune st.markers, by unfold TMap.exportUnique; rw [e]; rfl, ?_⟩
  have := h.shows (fun _ => rfl)
  have hv : (fun i => TMap.visList m gen shown objs i = true) = fun i =>
      (objAt m i ∈ objs ∨ (objs = [] ∧ objAt m i ≠ 0)) ∧ shown (gen (objAt m i)) = true := by
    funext i
    unfold TMap.visList
    simp
  rw [hv] at this
  exact this

/-- C44.  Every returned marker has as many colours as points, and at least one. -/
theorem C44_sizes {P C : Type} {m : TMap} {vis : Idx → Prop} {col : UInt32 → C} {loc : Idx → P}
    {r : List (DMarker P C)} (h : ShowsByObject m vis col loc r) {w : DMarker P C} (hw : w ∈ r) :
    w.points.length = w.colors.length ∧ 1 ≤ w.points.length := by
  obtain ⟨cells, _, _, h0, h1, h2⟩ := h.content w hw
  rw [h1, h2]
  simp only [List.length_map, true_and]
  exact List.length_pos_iff.mpr h0

/-! ### The overload with a colour map -/

/-- The colour used for an object: the caller's if given, otherwise generated. -/
def chosenColor {C : Type} (gen : UInt32 → C) (cmap : List (UInt32 × C)) (id : UInt32) : C :=
  (OMap.find id cmap).getD (gen id)

namespace TMap

variable {P C : Type}

theorem colorOf_spec (gen : UInt32 → C) (cmap : List (UInt32 × C)) (id : UInt32) :
    (colorOf gen cmap id).2 = chosenColor gen cmap id ∧
      ∀ id', chosenColor gen (colorOf gen cmap id).1 id' = chosenColor gen cmap id' := by
  unfold colorOf chosenColor
  cases h : OMap.find id cmap with
  | some c => exact ⟨rfl, fun _ => rfl⟩
  | none =>
    refine ⟨rfl, fun id' => ?_⟩
    dsimp only
    rw [OMap.find_insert]
    by_cases e : id = id'
    · subst e; simp [h]
    · rw [if_neg e]

/-- Cells drawn by the colour map overload. -/
def visColors (m : TMap) (gen : UInt32 → C) (shown : C → Bool) (cmap : List (UInt32 × C)) (i : Idx) :
    Bool :=
  ((OMap.find (objAt m i) cmap).isSome || objAt m i != 0) && shown (chosenColor gen cmap (objAt m i))

theorem unique_colors_loop (gen : UInt32 → C) (shown : C → Bool) (loc : Idx → P) (m : TMap)
    {cmap : List (UInt32 × C)} (hs : OMap.Sorted cmap) :
    ∃ s, m.dims.all.foldlM (stepUniqueColors gen shown loc m)
        (listMarkers (OMap.keys cmap), cmap) = some s ∧
      DInv (objAt m) (visColors m gen shown cmap) (chosenColor gen cmap) loc m.dims.all s.1 := by
  let I : List Idx → DState P C × List (UInt32 × C) → Prop := fun l s =>
    DInv (objAt m) (visColors m gen shown cmap) (chosenColor gen cmap) loc l s.1 ∧
    s.1.idx.length = s.1.markers.length ∧
    (∀ id, chosenColor gen s.2 id = chosenColor gen cmap id) ∧
    (∀ id, id ∈ OMap.keys cmap → (OMap.find id s.1.idx).isSome = true) ∧
    ((OMap.find 0 s.1.idx).isSome = true → 0 ∈ OMap.keys cmap)
  have step : ∀ l i s, I l s →
      ∃ s', stepUniqueColors gen shown loc m s i = some s' ∧ I (l ++ [i]) s' := by
    rintro l i ⟨s, cm⟩ ⟨h1, h2, h3, h4, h5⟩
    have hobj : (m.grid.get i).obj = objAt m i := rfl
    unfold stepUniqueColors
    rw [hobj]
    obtain ⟨c1, c2⟩ := colorOf_spec gen cm (objAt m i)
    have key : ∀ s : DState P C,
        DInv (objAt m) (visColors m gen shown cmap) (chosenColor gen cmap) loc l s →
        s.idx.length = s.markers.length →
        (∀ id, id ∈ OMap.keys cmap → (OMap.find id s.idx).isSome = true) →
        ((OMap.find 0 s.idx).isSome = true → 0 ∈ OMap.keys cmap) →
        (objAt m i ≠ 0 → (OMap.find (objAt m i) s.idx).isSome = true) →
        ∃ s', (match OMap.find (objAt m i) s.idx with
          | none => some (s, cm)
          | some k => if shown (colorOf gen cm (objAt m i)).2 then
              (addPoint s k (loc i) (colorOf gen cm (objAt m i)).2).map
                fun st => (st, (colorOf gen cm (objAt m i)).1)
            else some (s, (colorOf gen cm (objAt m i)).1)) = some s' ∧ I (l ++ [i]) s' := by
      intro s g1 g2 g3 g4 g5
      have hc3 : ∀ id, chosenColor gen (colorOf gen cm (objAt m i)).1 id = chosenColor gen cmap id :=
        fun id => (c2 id).trans (h3 id)
      cases hf : OMap.find (objAt m i) s.idx with
      | none =>
        have h0 : objAt m i = 0 := by
          by_contra hn
          have := g5 hn
          rw [hf] at this; simp at this
        have hnk : OMap.find (objAt m i) cmap = none := by
          by_contra hn
          have := g3 _ ((OMap.find_isSome_iff _ _).mp (Option.isSome_iff_ne_none.mpr hn))
          rw [hf] at this; simp at this
        have hv : visColors m gen shown cmap i = false := by
          unfold visColors; rw [hnk, h0]; simp
        exact ⟨_, rfl, g1.skip hv, g2, h3, g3, g4⟩
      | some k =>
        have hv : visColors m gen shown cmap i = shown (chosenColor gen cmap (objAt m i)) := by
          unfold visColors
          by_cases h0 : objAt m i = 0
          · have hk : (OMap.find (objAt m i) cmap).isSome = true := by
              rw [OMap.find_isSome_iff, h0]
              apply g4
              rw [← h0, hf]; rfl
            simp [hk]
          · simp [h0]
        dsimp only
        rw [c1, h3]
        by_cases hs : shown (chosenColor gen cmap (objAt m i)) = true
        · rw [if_pos hs]
          obtain ⟨st', e, hi, hml, hinv⟩ := g1.point (hv.trans hs) hf
          rw [e]
          exact ⟨_, rfl, hinv, by dsimp only; rw [hi, hml]; exact g2, hc3,
            by dsimp only; rw [hi]; exact g3, by dsimp only; rw [hi]; exact g4⟩
        · rw [if_neg hs]
          exact ⟨_, rfl, g1.skip (hv.trans (by simpa using hs)), g2, hc3, g3, g4⟩
    dsimp only at h1 h2 h3 h4 h5
    dsimp only
    by_cases hb : (objAt m i != 0 && (OMap.find (objAt m i) s.idx).isNone) = true
    · simp only [hb, if_true]
      simp only [Bool.and_eq_true, bne_iff_ne, ne_eq, Option.isNone_iff_eq_none] at hb
      obtain ⟨e1, e2⟩ := h1.ensure h2 hb.2
      refine key _ e1 e2 ?_ ?_ ?_
      · intro id hid
        unfold pushMarker; dsimp only; rw [OMap.find_insert]
        split
        · rfl
        · exact h4 id hid
      · unfold pushMarker; dsimp only; rw [OMap.find_insert, if_neg hb.1]; exact h5
      · intro _; unfold pushMarker; dsimp only; rw [OMap.find_insert]; simp
    · rw [if_neg hb]
      refine key s h1 h2 h4 h5 ?_
      intro h0
      simpa [h0, Option.isSome_iff_ne_none] using hb
  obtain ⟨i1, i2, i3⟩ := listMarkers_inv (objAt m) (visColors m gen shown cmap)
    (chosenColor gen cmap) loc (objs := OMap.keys cmap)
    (by unfold OMap.keys; rw [List.length_map]; exact OMap.length_le hs)
  obtain ⟨s, e, h⟩ := foldlM_inv _ I step m.dims.all [] (listMarkers (OMap.keys cmap), cmap)
    ⟨i1, i3 (OMap.nodup_keys hs), fun _ => rfl, fun id h => (i2 id).mpr h, fun h => (i2 0).mp h⟩
  exact ⟨s, e, by simpa using h.1⟩

end TMap

/-- C44, colour map overload.  For every map and colour map (keys increasing, as in a `std::map`)
`ExportForDisplayUniqueNs` returns without indexing out of range; it shows, in one marker per object,
exactly the cells whose object is nonzero or has a given colour and whose colour has positive alpha. -/
theorem C44_color_map {P C : Type} (gen : UInt32 → C) (shown : C → Bool) (loc : Idx → P) (m : TMap)
    {cmap : List (UInt32 × C)} (hs : (cmap.map Prod.fst).Pairwise (· < ·)) :
    ∃ r, m.exportUniqueColors gen shown loc cmap = some r ∧
      ShowsByObject m (fun i => (objAt m i ∈ cmap.map Prod.fst ∨ objAt m i ≠ 0) ∧
        shown (chosenColor gen cmap (objAt m i)) = true) (chosenColor gen cmap) loc r := by
  obtain ⟨s, e, h⟩ := TMap.unique_colors_loop gen shown loc m (cmap := cmap) hs
  refine ⟨TMap.prune s.1.markers, by unfold TMap.exportUniqueColors; rw [e]; rfl, ?_⟩
  have := h.shows (fun _ => rfl)
  have hv : (fun i => TMap.visColors m gen shown cmap i = true) = fun i =>
      (objAt m i ∈ cmap.map Prod.fst ∨ objAt m i ≠ 0) ∧
        shown (chosenColor gen cmap (objAt m i)) = true := by
    funext i
    unfold TMap.visColors
    rw [Bool.and_eq_true, Bool.or_eq_true, OMap.find_isSome_iff]
    simp [OMap.keys]
  rw [hv] at this
  exact this

/-- Objects 7 and 9 and background; the list names object 7 twice. -/
def exDisplay : TMap := (TMap.create false ⟨2, 2, 1⟩ (TCell.ofObj 0 0) (TCell.ofObj 0 0)).run
  [.setValue ⟨0, 1, 0⟩ (TCell.ofObj F32.one 9), .setValue ⟨1, 0, 0⟩ (TCell.ofObj F32.one 7),
    .setValue ⟨1, 1, 0⟩ (TCell.ofObj F32.one 9)]

example : exDisplay.exportUnique (fun id => id) (fun c => c != 0) (fun i => i) [7, 9, 7] =
    some [⟨9, [⟨0, 1, 0⟩, ⟨1, 1, 0⟩], [9, 9]⟩, ⟨7, [⟨1, 0, 0⟩], [7]⟩] := by decide

example : exDisplay.exportUnique (fun id => id) (fun c => c != 0) (fun i => i) [] =
    some [⟨9, [⟨0, 1, 0⟩, ⟨1, 1, 0⟩], [9, 9]⟩, ⟨7, [⟨1, 0, 0⟩], [7]⟩] := by decide

example : exDisplay.exportUniqueColors (fun id => id) (fun c => c != 0) (fun i => i) [(0, 5), (7, 0)] =
    some [⟨0, [⟨0, 0, 0⟩], [5]⟩, ⟨9, [⟨0, 1, 0⟩, ⟨1, 1, 0⟩], [9, 9]⟩] := by decide

/-! ## C63: single-marker exports -/

namespace TMap

variable {P C : Type}

theorem fold_shows (m : TMap) (vis : Idx → Bool) (col : Idx → C) (loc : Idx → P)
    (f : List P × List C → Idx → List P × List C)
    (hf : ∀ acc i, f acc i = if vis i then (acc.1 ++ [loc i], acc.2 ++ [col i]) else acc) :
    ShowsCells m (fun i => vis i = true) col loc (m.dims.all.foldl f ([], [])) := by
  have go : ∀ (l : List Idx) (acc : List P × List C), l.foldl f acc =
      (acc.1 ++ (l.filter vis).map loc, acc.2 ++ (l.filter vis).map col) := by
    intro l
    induction l with
    | nil => intro acc; simp
    | cons a l ih =>
      intro acc
      rw [List.foldl_cons, ih, hf]
      by_cases h : vis a = true
      · simp [h]
      · simp [h]
  refine ⟨m.dims.all.filter vis, List.filter_sublist, fun i => ?_, ?_, ?_⟩
  · rw [List.mem_filter, Dims.mem_all, inB_iff_spec]
  · rw [go]; simp
  · rw [go]; simp

end TMap

/-- C63, objects.  `ExportForDisplay(alpha, objects)` shows exactly the cells of the listed objects
(all cells for the empty list) whose generated colour has positive alpha. -/
theorem C63_objects {P C : Type} (gen : UInt32 → C) (shown : C → Bool) (loc : Idx → P) (m : TMap)
    (objs : List UInt32) :
    ShowsCells m (fun i => (objs = [] ∨ objAt m i ∈ objs) ∧ shown (gen (objAt m i)) = true)
      (fun i => gen (objAt m i)) loc (m.exportObjects gen shown loc objs) := by
  have := TMap.fold_shows m (fun i => (objs.isEmpty || objs.contains (objAt m i)) &&
    shown (gen (objAt m i))) (fun i => gen (objAt m i)) loc
    (fun acc i =>
      let id := (m.grid.get i).obj
      if objs.isEmpty || objs.contains id then
        if shown (gen id) then (acc.1 ++ [loc i], acc.2 ++ [gen id]) else acc
      else acc) (by
      intro acc i
      show (if objs.isEmpty || objs.contains (objAt m i) then
        if shown (gen (objAt m i)) then (acc.1 ++ [loc i], acc.2 ++ [gen (objAt m i)]) else acc
        else acc) = _
      by_cases h1 : (objs.isEmpty || objs.contains (objAt m i)) = true
      · rw [if_pos h1, h1, Bool.true_and]
      · rw [if_neg h1, if_neg (by simp only [Bool.and_eq_true, not_and]; exact fun h => absurd h h1)])
  unfold TMap.exportObjects
  simpa using this

/-- C63, colour map.  `ExportForDisplay(color_map)` shows exactly the cells whose chosen colour has
positive alpha. -/
theorem C63_color_map {P C : Type} (gen : UInt32 → C) (shown : C → Bool) (loc : Idx → P) (m : TMap)
    (cmap : List (UInt32 × C)) :
    ShowsCells m (fun i => shown (chosenColor gen cmap (objAt m i)) = true)
      (fun i => chosenColor gen cmap (objAt m i)) loc (m.exportColors gen shown loc cmap) := by
  have h := TMap.fold_shows m (fun i => shown (chosenColor gen cmap (objAt m i)))
    (fun i => chosenColor gen cmap (objAt m i)) loc _ (fun _ _ => rfl)
  have go : ∀ (l : List Idx) (cm : List (UInt32 × C)) (acc : List P × List C),
      (∀ id, chosenColor gen cm id = chosenColor gen cmap id) →
      (l.foldl (fun acc i =>
        let q := TMap.colorOf gen acc.1 (m.grid.get i).obj
        if shown q.2 then (q.1, acc.2.1 ++ [loc i], acc.2.2 ++ [q.2]) else (q.1, acc.2))
        (cm, acc)).2 =
      l.foldl (fun acc i => if shown (chosenColor gen cmap (objAt m i)) then
        (acc.1 ++ [loc i], acc.2 ++ [chosenColor gen cmap (objAt m i)]) else acc) acc := by
    intro l
    induction l with
    | nil => intro cm acc _; rfl
    | cons a l ih =>
      intro cm acc hc
      obtain ⟨c1, c2⟩ := TMap.colorOf_spec gen cm (m.grid.get a).obj
      rw [List.foldl_cons, List.foldl_cons]
      dsimp only
      rw [c1, hc, show (m.grid.get a).obj = objAt m a from rfl]
      by_cases hs : shown (chosenColor gen cmap (objAt m a)) = true
      · rw [if_pos hs, if_pos hs]; exact ih _ _ (fun id => (c2 id).trans (hc id))
      · rw [if_neg hs, if_neg hs]; exact ih _ _ (fun id => (c2 id).trans (hc id))
  unfold TMap.exportColors
  rw [go _ _ _ (fun _ => rfl)]
  exact h

/-- C63, occupancy.  `ExportForDisplayOccupancyOnly` colours every cell by its class: above 0.5,
below 0.5, neither; it shows exactly the cells whose colour has positive alpha. -/
theorem C63_occupancy {P C : Type} (shown : C → Bool) (loc : Idx → P) (m : TMap)
    (collision free unknown : C) :
    ∃ col : Idx → C, (∀ i, ((m.getImm i).1.occ.gtHalf = true → col i = collision) ∧
        ((m.getImm i).1.occ.ltHalf = true → col i = free) ∧
        ((m.getImm i).1.occ.gtHalf = false → (m.getImm i).1.occ.ltHalf = false → col i = unknown)) ∧
      ShowsCells m (fun i => shown (col i) = true) col loc
        (m.exportOccupancy shown loc collision free unknown) := by
  refine ⟨fun i => if (m.getImm i).1.occ.gtHalf then collision
      else if (m.getImm i).1.occ.ltHalf then free else unknown, fun i => ⟨?_, ?_, ?_⟩, ?_⟩
  · intro h; simp [h]
  · intro h
    have := F32.trichotomy ((m.getImm i).1.occ)
    rw [h] at this
    have hg : ((m.getImm i).1.occ).gtHalf = false := by
      rcases this with t | t | t | t
      · exact t.2.2.2
      · exact t.2.2.2
      · exact absurd t.2.1 (by simp)
      · exact absurd t.2.1 (by simp)
    simp [h, hg]
  · intro h1 h2; simp [h1, h2]
  · exact TMap.fold_shows m _ _ loc _ (fun _ _ => rfl)

/-- C63, components.  `ExportConnectedComponentsForDisplay` shows every cell, coloured by component
except for unknown cells when these are to be grey. -/
theorem C63_components {P C : Type} (gen : UInt32 → C) (grey : C) (loc : Idx → P) (m : TMap)
    (colorUnknown : Bool) :
    ShowsCells m (fun _ => True) (fun i =>
      if (m.getImm i).1.occ.eqHalf = true ∧ colorUnknown = false then grey
      else gen (m.getImm i).1.comp) loc (m.exportComponents gen grey loc colorUnknown) := by
  have h := TMap.fold_shows m (fun _ => true) (fun i =>
      if !(m.grid.get i).occ.eqHalf then gen (m.grid.get i).comp
      else if colorUnknown then gen (m.grid.get i).comp else grey) loc
    (fun acc i =>
      let cell := m.grid.get i
      (acc.1 ++ [loc i], acc.2 ++ [if !cell.occ.eqHalf then gen cell.comp
        else if colorUnknown then gen cell.comp else grey])) (fun _ _ => rfl)
  have hc : (fun i => if !(m.grid.get i).occ.eqHalf then gen (m.grid.get i).comp
      else if colorUnknown then gen (m.grid.get i).comp else grey) = fun i =>
      if (m.getImm i).1.occ.eqHalf = true ∧ colorUnknown = false then grey
      else gen (m.getImm i).1.comp := by
    funext i
    have : (m.getImm i).1 = m.grid.get i := rfl
    rw [this]
    cases (m.grid.get i).occ.eqHalf <;> cases colorUnknown <;> simp
  rw [hc] at h
  unfold TMap.exportComponents
  simpa using h

/-- C63, segments.  `ExportConvexSegmentForDisplay` shows exactly the cells of that segment of that
object, all in one colour. -/
theorem C63_segment {P C : Type} (gen : UInt32 → C) (hot : UInt32 → UInt32 → C) (loc : Idx → P)
    (m : TMap) (object segment : UInt32) : ∃ c,
    ShowsCells m (fun i => (m.getImm i).1.obj = object ∧ (m.getImm i).1.seg = segment)
      (fun _ => c) loc (m.exportSegment gen hot loc object segment) := by
  refine ⟨if m.nSeg < 22 then gen segment else hot segment m.nSeg, ?_⟩
  have h := TMap.fold_shows m (fun i => (m.grid.get i).obj == object && (m.grid.get i).seg == segment)
    (fun _ => if m.nSeg < 22 then gen segment else hot segment m.nSeg) loc _ (fun _ _ => rfl)
  have hv : (fun i => ((m.grid.get i).obj == object && (m.grid.get i).seg == segment) = true) =
      fun i => (m.getImm i).1.obj = object ∧ (m.getImm i).1.seg = segment := by
    funext i
    rw [Bool.and_eq_true, beq_iff_eq, beq_iff_eq]; rfl
  rw [hv] at h
  exact h

example : exDisplay.exportObjects (fun id => id) (fun c => c != 0) (fun i => i) [7] =
    ([⟨1, 0, 0⟩], [7]) := by decide

example : exDisplay.exportSegment (fun id => id) (fun c _ => c) (fun i => i) 9 0 =
    ([⟨0, 1, 0⟩, ⟨1, 1, 0⟩], [0, 0]) := by decide

/-! ## C64: contour exports -/

/-- The rounding keeps `sqrt 3 * resolution` below the contour limit `1.9 * resolution`.  True for
IEEE arithmetic unless the values underflow or overflow. -/
def KeepsLimit (R : Rounding) (res : ℝ) : Prop :=
  R.r32 (scaled R res (some 3)) < TMap.contourLimit R res

/-- The cell is an obstacle (unknown counts as filled) with one of its 26 neighbours in the grid
outside its object. -/
def OnBoundary (m : TMap) (i : Idx) : Prop :=
  TObstacle m true i ∧ ∃ j, InBounds m.dims j ∧ Close i j ∧
    ¬ (objAt m j = objAt m i ∧ TObstacle m true j)

namespace TMap

theorem contour_value {R : Rounding} {res : ℝ} (hres : GoodRes R res) (h32 : 0 < R.r32 res)
    (hk : KeepsLimit R res) (m : TMap) (hd : SmallGrid m.dims) {v : Idx} (hv : InBounds m.dims v)
    {o : Out} {oob : FVal} (ho : m.extractObjs R (res, res, res) oob [objAt m v] true false = some o) :
    ∃ x, o.sdf.get v = some x ∧ ((x < 0 ∧ -contourLimit R res < x) ↔ OnBoundary m v) := by
  classical
  obtain ⟨o', a, b, ho', hs⟩ := base_spec hd (objFill_answers m [objAt m v] true) R res oob
  have : o' = o := by
    unfold extractObjs at ho
    rw [extract_false] at ho
    exact Option.some.inj (ho'.symm.trans ho)
  subst this
  have hsel : ∀ j, Selected m [objAt m v] j ↔ objAt m j = objAt m v := by
    intro j; simp [Selected, objAt]
  refine ⟨_, hs.val v hv, ?_⟩
  have hneg : -R.r32 res < 0 := by
    rw [show (0 : EReal) = -0 by simp, EReal.neg_lt_neg_iff]; exact h32
  by_cases hob : TObstacle m true v
  · have hf : decide (Selected m [objAt m v] v ∧ TObstacle m true v) = true := by
      simp [hsel, hob]
    have hle := R.mono32 (hs.filled_le hres hv hf)
    rw [R.odd32] at hle
    have hx0 := lt_of_le_of_lt hle hneg
    have hx : exactVal R res a b (fun i => decide (Selected m [objAt m v] i ∧ TObstacle m true i)) v
        = -scaled R res (reported b v) := by
      unfold exactVal; rw [if_pos hf]
    rw [hx] at hx0 ⊢
    rw [R.odd32] at hx0 ⊢
    rw [EReal.neg_lt_neg_iff]
    have hmem : ∀ p, p ∈ (m.dims.all.filter fun i =>
        !decide (Selected m [objAt m v] i ∧ TObstacle m true i)) ↔
        InBounds m.dims p ∧ ¬ (objAt m p = objAt m v ∧ TObstacle m true p) := by
      intro p
      rw [List.mem_filter, Dims.mem_all, inB_iff_spec, Bool.not_eq_true', decide_eq_false_iff_not,
        hsel]
    have hbuild := hs.hb
    have hlim4 : contourLimit R res ≤ R.r32 (scaled R res (some 4)) := by
      unfold contourLimit scaled
      apply R.mono32
      apply R.mono64
      refine mul_le_mul_of_nonneg_right (R.mono64 ?_) (by exact_mod_cast hres.1.le)
      unfold sqrtE
      apply EReal.coe_le_coe_iff.mpr
      have : Real.sqrt ((4 : Nat) : ℝ) = 2 := by
        rw [show ((4 : Nat) : ℝ) = 2 ^ 2 by norm_num]
        exact Real.sqrt_sq (by norm_num)
      rw [this]; norm_num
    constructor
    · rintro ⟨_, hlt⟩
      refine ⟨hob, ?_⟩
      cases hr : reported b v with
      | none =>
        rw [hr, scaled_top hres.1, R.top32] at hlt
        exact absurd hlt not_top_lt
      | some n =>
        obtain ⟨hcp, hn, _⟩ := C08_sound hd hbuild hv hr
        have hn3 : n ≤ 3 := by
          by_contra h4
          rw [hr] at hlt
          have := R.mono32 (scaled_mono (R := R) hres.1 (show 4 ≤ n by omega))
          exact absurd (lt_of_lt_of_le hlt (le_trans hlim4 this)) (lt_irrefl _)
        obtain ⟨c1, c2⟩ := (hmem _).mp hcp
        refine ⟨_, c1, ?_, c2⟩
        have h3 : sqDist v (closest b v) ≤ 3 := by rw [← hn]; exact_mod_cast hn3
        unfold sqDist at h3
        unfold Close
        simp only [abs_le]
        refine ⟨⟨?_, ?_⟩, ⟨?_, ?_⟩, ⟨?_, ?_⟩⟩ <;>
          nlinarith [sq_nonneg (v.x - (closest b v).x), sq_nonneg (v.y - (closest b v).y),
            sq_nonneg (v.z - (closest b v).z)]
    · rintro ⟨_, j, hj, hc, hnj⟩
      refine ⟨hx0, ?_⟩
      obtain ⟨n, hn, hle', _⟩ := reported_close hd hbuild hv ((hmem j).mpr ⟨hj, hnj⟩) hc
      have h3 : sqDist v j ≤ 3 := by
        obtain ⟨c1, c2, c3⟩ := hc
        rw [abs_le] at c1 c2 c3
        unfold sqDist
        nlinarith
      rw [hn]
      exact lt_of_le_of_lt (R.mono32 (scaled_mono (R := R) hres.1 (show n ≤ 3 by omega))) hk
  · have hf : decide (Selected m [objAt m v] v ∧ TObstacle m true v) = false := by
      simp [hob]
    have hge := R.mono32 (hs.free_ge hres hv hf)
    constructor
    · rintro ⟨h, _⟩
      exact absurd (lt_of_lt_of_le h32 hge) (not_lt.mpr h.le)
    · rintro ⟨h, _⟩; exact absurd h hob

/-- The contour test is the boundary of the drawn objects. -/
theorem onContour_iff {R : Rounding} {res : ℝ} (hres : GoodRes R res) (h32 : 0 < R.r32 res)
    (hk : KeepsLimit R res) (m : TMap) (hd : SmallGrid m.dims) {sdfs : List (UInt32 × Grid FVal)}
    {drawn : UInt32 → Prop} (hsort : OMap.Sorted sdfs)
    (hkeys : ∀ i, InBounds m.dims i → (objAt m i ∈ OMap.keys sdfs ↔ drawn (objAt m i)))
    (hent : ∀ id g, (id, g) ∈ sdfs → ∃ o, m.extractObjs R (res, res, res) (some ⊤) [id] true false
      = some o ∧ o.sdf = g) {i : Idx} (hi : InBounds m.dims i) :
    onContour R res m sdfs i = true ↔ drawn (objAt m i) ∧ OnBoundary m i := by
  unfold onContour
  rw [show (m.grid.get i).obj = objAt m i from rfl, ← hkeys i hi, ← OMap.find_isSome_iff]
  cases hf : OMap.find (objAt m i) sdfs with
  | none => simp
  | some g =>
    obtain ⟨o, ho, rfl⟩ := hent _ _ ((OMap.mem_iff_find hsort _ _).mpr hf)
    obtain ⟨x, hx, hb⟩ := contour_value hres h32 hk m hd hi ho
    dsimp only
    rw [hx]
    simp [hb]

variable {P C : Type}

theorem contour_loop (R : Rounding) (res : ℝ) (color : UInt32 → Option C) (col : UInt32 → C)
    (shown : C → Bool) (loc : Idx → P) (m : TMap) {sdfs : List (UInt32 × Grid FVal)}
    (hsort : OMap.Sorted sdfs) (hcol : ∀ id ∈ OMap.keys sdfs, color id = some (col id)) :
    ∃ st, m.dims.all.foldlM (stepContour R res color shown loc m sdfs)
        (listMarkers (OMap.keys sdfs)) = some st ∧
      DInv (objAt m) (fun i => onContour R res m sdfs i && shown (col (objAt m i))) col loc
        m.dims.all st := by
  obtain ⟨i1, i2, i3⟩ := listMarkers_inv (objAt m)
    (fun i => onContour R res m sdfs i && shown (col (objAt m i))) col loc (objs := OMap.keys sdfs)
    (by unfold OMap.keys; rw [List.length_map]; exact OMap.length_le hsort)
  let I : List Idx → DState P C → Prop := fun l st =>
    DInv (objAt m) (fun i => onContour R res m sdfs i && shown (col (objAt m i))) col loc l st ∧
    (∀ id ∈ OMap.keys sdfs, (OMap.find id st.idx).isSome = true)
  have step : ∀ l i s, I l s →
      ∃ s', stepContour R res color shown loc m sdfs s i = some s' ∧ I (l ++ [i]) s' := by
    rintro l i s ⟨h1, h2⟩
    unfold stepContour
    rw [show (m.grid.get i).obj = objAt m i from rfl]
    by_cases hc : onContour R res m sdfs i = true
    · rw [if_pos hc]
      have hin : objAt m i ∈ OMap.keys sdfs := by
        rw [← OMap.find_isSome_iff]
        unfold onContour at hc
        rw [show (m.grid.get i).obj = objAt m i from rfl] at hc
        cases hf : OMap.find (objAt m i) sdfs with
        | none => rw [hf] at hc; simp at hc
        | some g => rfl
      rw [hcol _ hin]
      dsimp only
      by_cases hs : shown (col (objAt m i)) = true
      · rw [if_pos hs]
        obtain ⟨k, hk⟩ := Option.isSome_iff_exists.mp (h2 _ hin)
        rw [hk]
        obtain ⟨st', e, hidx, _, hinv⟩ := h1.point (i := i) (by simp [hc, hs]) hk
        exact ⟨st', e, hinv, by rw [hidx]; exact h2⟩
      · rw [if_neg hs]
        exact ⟨s, rfl, h1.skip (by simp [hs]), h2⟩
    · rw [if_neg hc]
      exact ⟨s, rfl, h1.skip (by simp [hc]), h2⟩
  obtain ⟨st, e, h⟩ := foldlM_inv _ I step m.dims.all [] (listMarkers (OMap.keys sdfs))
    ⟨i1, fun id hid => (i2 id).mpr hid⟩
  exact ⟨st, e, by simpa using h.1⟩

theorem contourSDFs_spec {R : Rounding} {res : ℝ} (hres : GoodRes R res) (h32 : 0 < R.r32 res)
    (m : TMap) (hd : SmallGrid m.dims) (objs : List UInt32) :
    ∃ sdfs, contourSDFs R res m objs = some sdfs ∧ OMap.Sorted sdfs ∧
      (∀ i, InBounds m.dims i → (objAt m i ∈ OMap.keys sdfs ↔
        (objAt m i ∈ objs ∨ (objs = [] ∧ objAt m i ≠ 0)))) ∧
      ∀ id g, (id, g) ∈ sdfs → ∃ o, m.extractObjs R (res, res, res) (some ⊤) [id] true false
        = some o ∧ o.sdf = g := by
  have hd' : FieldFits m.dims false := hd
  unfold contourSDFs
  by_cases he : objs = []
  · subst he
    obtain ⟨l, h1, h2, h3, h4⟩ := C40_make_objects hres h32 m false hd' true m.objectIds
    obtain ⟨l', g1, _, g3, _⟩ := C40_all_objects hres h32 m false hd' true
    have : l' = l := by
      unfold makeAllObjectSDFs at g1
      exact Option.some.inj (g1.symm.trans h1)
    subst this
    refine ⟨l', g1, h2, fun i hi => ?_, h4⟩
    unfold OMap.keys
    rw [g3]
    constructor
    · rintro ⟨h0, _⟩; exact Or.inr ⟨rfl, h0⟩
    · rintro (h | h)
      · simp at h
      · exact ⟨h.2, i, hi, rfl⟩
  · obtain ⟨l, h1, h2, h3, h4⟩ := C40_make_objects hres h32 m false hd' true objs
    have : objs.isEmpty = false := by
      cases objs with
      | nil => exact absurd rfl he
      | cons a l => rfl
    rw [this]
    refine ⟨l, h1, h2, fun i hi => ?_, h4⟩
    unfold OMap.keys
    rw [h3]
    simp [he]

theorem fillColors_spec (gen : UInt32 → C) (ids : List UInt32) : ∀ (cmap : List (UInt32 × C)),
    ∀ id, OMap.find id (fillColors gen ids cmap) =
      if id ∈ ids then some (chosenColor gen cmap id) else OMap.find id cmap := by
  induction ids with
  | nil => intro cmap id; simp [fillColors]
  | cons a ids ih =>
    intro cmap id
    have hstep : fillColors gen (a :: ids) cmap = fillColors gen ids
      (if (OMap.find a cmap).isNone then OMap.insert a (gen a) cmap else cmap) := rfl
    rw [hstep, ih]
    have hch : chosenColor gen (if (OMap.find a cmap).isNone then OMap.insert a (gen a) cmap else cmap) id
        = chosenColor gen cmap id := by
      unfold chosenColor
      split
      · rename_i hn
        rw [OMap.find_insert]
        split
        · rename_i e; subst e
          rw [Option.isNone_iff_eq_none] at hn
          simp [hn]
        · rfl
      · rfl
    rw [hch]
    by_cases hi : id ∈ ids
    · simp [hi]
    · rw [if_neg hi]
      by_cases e : id = a
      · subst e
        simp only [List.mem_cons, true_or, if_true]
        unfold chosenColor
        split
        · rename_i hn
          rw [OMap.find_insert]
          rw [Option.isNone_iff_eq_none] at hn
          simp [hn]
        · rename_i hn
          cases hf : OMap.find id cmap with
          | none => rw [hf] at hn; simp at hn
          | some c => rfl
      · simp only [List.mem_cons, e, hi, or_self, if_false]
        split
        · rw [OMap.find_insert, if_neg (fun h => e h.symm)]
        · rfl

end TMap

/-- C64, one marker.  `ExportContourOnlyForDisplay(alpha, objects)` shows exactly the boundary cells
of the drawn objects whose colour has positive alpha. -/
theorem C64_contour {P C : Type} {R : Rounding} {res : ℝ} (hres : GoodRes R res)
    (h32 : 0 < R.r32 res) (hk : KeepsLimit R res) (gen : UInt32 → C) (shown : C → Bool)
    (loc : Idx → P) (m : TMap) (hd : SmallGrid m.dims) (objs : List UInt32) :
    ∃ r, m.exportContour R res gen shown loc objs = some r ∧
      ∃ vis : Idx → Prop, ShowsCells m vis (fun i => gen (objAt m i)) loc r ∧
      ∀ i, InBounds m.dims i → (vis i ↔ (objAt m i ∈ objs ∨ (objs = [] ∧ objAt m i ≠ 0)) ∧
        OnBoundary m i ∧ shown (gen (objAt m i)) = true) := by
  obtain ⟨sdfs, h1, h2, h3, h4⟩ := TMap.contourSDFs_spec hres h32 m hd objs
  refine ⟨_, by unfold TMap.exportContour; rw [h1]; rfl, _,
    TMap.fold_shows m (fun i => TMap.onContour R res m sdfs i && shown (gen (objAt m i)))
      (fun i => gen (objAt m i)) loc _ ?_, ?_⟩
  · intro acc i
    rw [show (m.grid.get i).obj = objAt m i from rfl]
    by_cases hc : TMap.onContour R res m sdfs i = true
    · rw [if_pos hc, hc, Bool.true_and]
    · rw [if_neg hc, if_neg (by simp only [Bool.and_eq_true, not_and]; exact fun h => absurd h hc)]
  · intro i hi
    rw [Bool.and_eq_true, TMap.onContour_iff
      (drawn := fun id => id ∈ objs ∨ (objs = [] ∧ id ≠ 0)) hres h32 hk m hd h2 h3 h4 hi]
    tauto

/-- C64, one marker per object, object list. -/
theorem C64_contour_by_object {P C : Type} {R : Rounding} {res : ℝ} (hres : GoodRes R res)
    (h32 : 0 < R.r32 res) (hk : KeepsLimit R res) (gen : UInt32 → C) (shown : C → Bool)
    (loc : Idx → P) (m : TMap) (hd : SmallGrid m.dims) (objs : List UInt32) :
    ∃ r, m.exportContourUnique R res gen shown loc objs = some r ∧
      ∃ vis : Idx → Prop, ShowsByObject m vis gen loc r ∧
      ∀ i, InBounds m.dims i → (vis i ↔ (objAt m i ∈ objs ∨ (objs = [] ∧ objAt m i ≠ 0)) ∧
        OnBoundary m i ∧ shown (gen (objAt m i)) = true) := by
  obtain ⟨sdfs, h1, h2, h3, h4⟩ := TMap.contourSDFs_spec hres h32 m hd objs
  obtain ⟨st, e, h⟩ := TMap.contour_loop R res (fun id => some (gen id)) gen shown loc m h2
    (fun _ _ => rfl)
  refine ⟨TMap.prune st.markers, by
    unfold TMap.exportContourUnique
    rw [h1]
    dsimp only [Option.bind]
    rw [e]; rfl, _, h.shows (fun _ => rfl), ?_⟩
  intro i hi
  rw [Bool.and_eq_true, TMap.onContour_iff
    (drawn := fun id => id ∈ objs ∨ (objs = [] ∧ id ≠ 0)) hres h32 hk m hd h2 h3 h4 hi]
  tauto

/-- C64, one marker per object, colour map: the colour lookup never throws. -/
theorem C64_contour_colors {P C : Type} {R : Rounding} {res : ℝ} (hres : GoodRes R res)
    (h32 : 0 < R.r32 res) (hk : KeepsLimit R res) (gen : UInt32 → C) (shown : C → Bool)
    (loc : Idx → P) (m : TMap) (hd : SmallGrid m.dims) (cmap : List (UInt32 × C)) :
    ∃ r, m.exportContourUniqueColors R res gen shown loc cmap = some r ∧
      ∃ vis : Idx → Prop, ShowsByObject m vis (chosenColor gen cmap) loc r ∧
      ∀ i, InBounds m.dims i → (vis i ↔ objAt m i ≠ 0 ∧
        OnBoundary m i ∧ shown (chosenColor gen cmap (objAt m i)) = true) := by
  obtain ⟨sdfs, h1, h2, h3, h4⟩ := TMap.contourSDFs_spec hres h32 m hd []
  have h1' : TMap.makeAllObjectSDFs R (res, res, res) m true false = some sdfs := h1
  obtain ⟨st, e, h⟩ := TMap.contour_loop R res
    (fun id => OMap.find id (TMap.fillColors gen (OMap.keys sdfs) cmap)) (chosenColor gen cmap) shown
    loc m h2 (fun id hid => by rw [TMap.fillColors_spec, if_pos hid])
  refine ⟨TMap.prune st.markers, by
    unfold TMap.exportContourUniqueColors; rw [h1']; dsimp only [Option.bind]; rw [e]; rfl, _,
    h.shows (fun _ => rfl), ?_⟩
  intro i hi
  have h3' := fun i hi => (h3 i hi).trans (show _ ↔ objAt m i ≠ 0 by simp)
  rw [Bool.and_eq_true, TMap.onContour_iff (drawn := fun id => id ≠ 0) hres h32 hk m hd h2 h3' h4 hi]
  tauto

/-- C64, one marker, colour map. -/
theorem C64_contour_colors_single {P C : Type} {R : Rounding} {res : ℝ} (hres : GoodRes R res)
    (h32 : 0 < R.r32 res) (hk : KeepsLimit R res) (gen : UInt32 → C) (shown : C → Bool)
    (loc : Idx → P) (m : TMap) (hd : SmallGrid m.dims) (cmap : List (UInt32 × C)) :
    ∃ r, m.exportContourColors R res gen shown loc cmap = some r ∧
      ∃ vis : Idx → Prop, ShowsCells m vis (fun i => chosenColor gen cmap (objAt m i)) loc r ∧
      ∀ i, InBounds m.dims i → (vis i ↔ objAt m i ≠ 0 ∧
        OnBoundary m i ∧ shown (chosenColor gen cmap (objAt m i)) = true) := by
  obtain ⟨sdfs, h1, h2, h3, h4⟩ := TMap.contourSDFs_spec hres h32 m hd []
  have h1' : TMap.makeAllObjectSDFs R (res, res, res) m true false = some sdfs := h1
  have hsh := TMap.fold_shows m
    (fun i => TMap.onContour R res m sdfs i && shown (chosenColor gen cmap (objAt m i)))
    (fun i => chosenColor gen cmap (objAt m i)) loc _ (fun _ _ => rfl)
  have hgo : ∀ (l : List Idx) (acc : List P × List C),
      l.foldlM (m := Option) (fun acc i =>
        if TMap.onContour R res m sdfs i then
          match OMap.find (m.grid.get i).obj (TMap.fillColors gen (OMap.keys sdfs) cmap) with
          | none => none
          | some c => if shown c then some (acc.1 ++ [loc i], acc.2 ++ [c]) else some acc
        else some acc) acc =
      some (l.foldl (fun acc i =>
        if TMap.onContour R res m sdfs i && shown (chosenColor gen cmap (objAt m i)) then
          (acc.1 ++ [loc i], acc.2 ++ [chosenColor gen cmap (objAt m i)]) else acc) acc) := by
    intro l
    induction l with
    | nil => intro acc; rfl
    | cons a l ih =>
      intro acc
      rw [List.foldlM_cons, List.foldl_cons, ← ih]
      rw [show (m.grid.get a).obj = objAt m a from rfl]
      by_cases hc : TMap.onContour R res m sdfs a = true
      · have hin : objAt m a ∈ OMap.keys sdfs := by
          rw [← OMap.find_isSome_iff]
          unfold TMap.onContour at hc
          rw [show (m.grid.get a).obj = objAt m a from rfl] at hc
          cases hf : OMap.find (objAt m a) sdfs with
          | none => rw [hf] at hc; simp at hc
          | some g => rfl
        rw [if_pos hc, TMap.fillColors_spec, if_pos hin, hc]
        by_cases hs : shown (chosenColor gen cmap (objAt m a)) = true
        · simp only [hs, if_true, Bool.and_self]; rfl
        · simp only [hs, if_false, Bool.true_and]; rfl
      · rw [if_neg hc]
        simp only [hc, Bool.false_and]; rfl
  refine ⟨_, by unfold TMap.exportContourColors; rw [h1']; exact hgo _ _, _, hsh, ?_⟩
  intro i hi
  have h3' := fun i hi => (h3 i hi).trans (show _ ↔ objAt m i ≠ 0 by simp)
  rw [Bool.and_eq_true, TMap.onContour_iff (drawn := fun id => id ≠ 0) hres h32 hk m hd h2 h3' h4 hi]
  tauto

/-- Exact arithmetic keeps the limit. -/
theorem keepsLimit_exact {res : ℝ} (h : 0 < res) : KeepsLimit exactRounding res := by
  show ((Real.sqrt ((3 : Nat) : ℝ) : ℝ) : EReal) * (res : EReal) < ((19 / 10 : ℝ) : EReal) * (res : EReal)
  rw [← EReal.coe_mul, ← EReal.coe_mul]
  apply EReal.coe_lt_coe_iff.mpr
  have : Real.sqrt ((3 : Nat) : ℝ) < 19 / 10 := by
    rw [Real.sqrt_lt' (by norm_num)]; norm_num
  exact mul_lt_mul_of_pos_right this h

example : KeepsLimit exactRounding (1 / 4) ∧ SmallGrid exDisplay.dims ∧
    OnBoundary exDisplay ⟨1, 0, 0⟩ ∧ ¬ OnBoundary exDisplay ⟨0, 0, 0⟩ := by
  refine ⟨keepsLimit_exact (by norm_num), by unfold SmallGrid; decide,
    ⟨by unfold TObstacle; decide, ⟨0, 0, 0⟩, by unfold InBounds; decide, by unfold Close; decide,
      by unfold TObstacle; decide⟩, ?_⟩
  rintro ⟨h, _⟩
  revert h
  unfold TObstacle; decide

end Verif
