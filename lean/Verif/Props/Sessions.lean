import Verif.Spec.Sessions
import Verif.Props.Files
import Verif.Props.Sdf
import Verif.Props.CollisionMap
import Verif.Props.Tagged

/-!
# C138: programs that save, load and send maps
-/

namespace Verif

open Spec Serial

namespace Spec

/-- Cells and frame name fit into memory. -/
def Fits : Obj → Prop
  | .sdf s => FitsMemory s.base.data ∧ FitsMemory s.frame
  | .cmap m => FitsMemory m.base.data ∧ FitsMemory m.frame
  | .tmap t => FitsMemory t.base.data ∧ FitsMemory t.frame

/-- The cell counts agree with the number of stored cells. -/
def Sound : Obj → Prop
  | .sdf s => s.map.grid.WF
  | .cmap m => m.map.grid.WF
  | .tmap t => t.map.grid.WF

end Spec

namespace Serial

/-! ## Records and maps -/

theorem sdf_apply_same (m : Sdf F32) (o : Sdf.Op Idx F32) :
    (m.apply id o).1.grid.dims = m.grid.dims ∧ (m.apply id o).1.grid.dflt = m.grid.dflt := by
  cases o <;> simp only [Sdf.apply, Sdf.lock, Sdf.unlock, Sdf.setValue, Sdf.setValueAt, Sdf.mutWrite, Sdf.mutWriteAt]
    <;> (repeat' split) <;> simp [Grid.set] <;> split <;> simp

theorem cmap_apply_same {m : CMap} (h : m.grid.WF) (o : CMap.Op) :
    (m.apply o).grid.WF ∧ (m.apply o).grid.dims = m.grid.dims ∧ (m.apply o).grid.dflt = m.grid.dflt := by
  cases o with
  | setValue i c =>
    refine ⟨CMap.setValue_wf h i c, CMap.setValue_dims m i c, ?_⟩
    simp only [CMap.apply, CMap.setValue]
    split
    · simp only [Grid.set]; split <;> rfl
    · rfl
  | mutWrite i c =>
    refine ⟨CMap.mutWrite_wf h i c, by simp [CMap.apply], ?_⟩
    simp only [CMap.apply, CMap.mutWrite]
    split
    · simp only [Grid.set]; split <;> rfl
    · rfl
  | update =>
    simp only [CMap.apply]
    cases hv : m.valid with
    | true =>
      have : m.updateCC = some (m, m.nComp.toNat) := by unfold CMap.updateCC; rw [if_pos hv]
      rw [this]
      exact ⟨h, rfl, rfl⟩
    | false =>
      obtain ⟨m', n, hu, hs, -⟩ := CMap.updateCC_total m hv h
      rw [hu]
      exact ⟨hs.1, hs.2.1, hs.2.2.1⟩

theorem tmap_apply_same {m : TMap} (h : m.grid.WF) (o : TMap.Op) :
    (m.apply o).grid.WF ∧ (m.apply o).grid.dims = m.grid.dims ∧ (m.apply o).grid.dflt = m.grid.dflt := by
  cases o with
  | setValue i c =>
    refine ⟨TMap.setValue_wf h i c, by simp [TMap.apply], ?_⟩
    simp only [TMap.apply, TMap.setValue]
    split
    · simp only [Grid.set]; split <;> rfl
    · rfl
  | mutWrite i c =>
    refine ⟨TMap.mutWrite_wf h i c, by simp [TMap.apply], ?_⟩
    simp only [TMap.apply, TMap.mutWrite]
    split
    · simp only [Grid.set]; split <;> rfl
    · rfl
  | update =>
    simp only [TMap.apply]
    cases hr : m.updateCC with
    | none => exact ⟨h, rfl, rfl⟩
    | some r =>
      have := TMap.updateCC_same m h r hr
      exact ⟨this.1, this.2.1, this.2.2.1⟩
  | segment S =>
    simp only [TMap.apply]
    cases hr : m.updateSeg S with
    | none => exact ⟨h, rfl, rfl⟩
    | some r =>
      have := TMap.updateSeg_same S m h r hr
      exact ⟨this.1, this.2.1, this.2.2.1⟩

theorem sdf_view (s : SdfRec) {m : Sdf F32} (hd : m.grid.dims = s.map.grid.dims) (hf : m.grid.dflt = s.map.grid.dflt) :
    (s.withMap m).map = m := by
  obtain ⟨⟨d, data, df, ob⟩, l⟩ := m
  simp only at hd hf
  subst hd hf
  rfl

theorem cmap_view (s : CMapRec) {m : CMap} (hd : m.grid.dims = s.map.grid.dims) (hf : m.grid.dflt = s.map.grid.dflt) :
    (s.withMap m).map = m := by
  obtain ⟨⟨d, data, df, ob⟩, l⟩ := m
  simp only at hd hf
  subst hd hf
  rfl

theorem tmap_view (s : TMapRec) {m : TMap} (hd : m.grid.dims = s.map.grid.dims) (hf : m.grid.dflt = s.map.grid.dflt) :
    (s.withMap m).map = m := by
  obtain ⟨⟨d, data, df, ob⟩, l⟩ := m
  simp only at hd hf
  subst hd hf
  rfl

/-- Calls keep an object sound and as large as it was. -/
theorem apply_ok {o : Obj} (hs : Sound o) (hf : Fits o) (c : Call) : Sound (o.apply c) ∧ Fits (o.apply c) := by
  have key : ∀ {α : Type} {g g' : Grid α}, g.WF → g'.WF → g'.dims = g.dims → FitsMemory g.data → FitsMemory g'.data := by
    intro α g g' h1 h2 h3 h4
    unfold Grid.WF FitsMemory at *
    rw [h2, h3, ← h1]; exact h4
  cases o with
  | sdf s =>
    cases c with
    | sdf op =>
      have e := sdf_view s (sdf_apply_same s.map op).1 (sdf_apply_same s.map op).2
      have hw := Sdf.apply_wf id (s := s.map) hs op
      refine ⟨?_, ?_, hf.2⟩
      · show (s.withMap _).map.grid.WF
        rw [e]; exact hw
      · exact key hs hw (sdf_apply_same s.map op).1 hf.1
    | cmap _ => exact ⟨hs, hf⟩
    | tmap _ => exact ⟨hs, hf⟩
  | cmap s =>
    cases c with
    | cmap op =>
      obtain ⟨hw, h2, h3⟩ := cmap_apply_same (m := s.map) hs op
      have e := cmap_view s h2 h3
      refine ⟨?_, ?_, hf.2⟩
      · show (s.withMap _).map.grid.WF
        rw [e]; exact hw
      · exact key hs hw h2 hf.1
    | sdf _ => exact ⟨hs, hf⟩
    | tmap _ => exact ⟨hs, hf⟩
  | tmap s =>
    cases c with
    | tmap op =>
      obtain ⟨hw, h2, h3⟩ := tmap_apply_same (m := s.map) hs op
      have e := tmap_view s h2 h3
      refine ⟨?_, ?_, hf.2⟩
      · show (s.withMap _).map.grid.WF
        rw [e]; exact hw
      · exact key hs hw h2 hf.1
    | sdf _ => exact ⟨hs, hf⟩
    | cmap _ => exact ⟨hs, hf⟩

/-! ## Files -/

theorem other_prefix {M N : Type} (z : Zlib) (f : Format M) (g : Format N) (m : M) (c : Bool) (n : Nat)
    (h1 : f.saveZ.length = 4) (h2 : f.saveR.length = 4) (h3 : g.loadZ.length = 4) (h4 : g.loadR.length = 4)
    (h5 : f.saveZ ≠ g.loadZ) (h6 : f.saveZ ≠ g.loadR) (h7 : f.saveR ≠ g.loadZ) (h8 : f.saveR ≠ g.loadR) :
    ∃ e, g.load z (some ((f.save z m c).take n)) = .error e := by
  have htake : (f.save z m c).take 4 = if c then f.saveZ else f.saveR := by
    unfold Format.save
    cases c
    · simp [List.take_left' h2]
    · simp [List.take_left' h1]
  have hlen : 4 ≤ (f.save z m c).length := by
    unfold Format.save
    cases c <;> simp [h1, h2]
  by_cases hn : n < 4
  · exact ⟨_, (C32_rejects g ⟨h3, h4⟩ z).2.1 _ (by rw [List.length_take]; omega)⟩
  · refine ⟨_, (C32_rejects g ⟨h3, h4⟩ z).2.2 _ (by rw [List.length_take]; omega) ?_ ?_⟩ <;>
      rw [List.take_take, Nat.min_eq_left (by omega), htake] <;> cases c <;> simp [*]

theorem same_prefix {M : Type} {f : Format M} {m : M} {bytes : List UInt8} (ok : f.Ok m bytes) {z : Zlib}
    (hp : ZlibRefusesPrefixes z) (c : Bool) (n : Nat) (hn : n < (f.save z m c).length) :
    ∃ e, f.load z (some ((f.save z m c).take n)) = .error e := by
  cases c with
  | false => rcases ok.truncated z n hn with h | h <;> exact ⟨_, h⟩
  | true => exact f.truncatedZ ok.z4 ok.znz ok.zz z hp n m hn

/-- Loading what was written of an object. -/
theorem loadAs_file {z : Zlib} (hz : ZlibOk z) (hp : ZlibRefusesPrefixes z) {o : Obj} (hf : Fits o) (c : Bool) (n : Nat)
    (ty : Ty) : loadAs z (some ((o.file z c).take n)) ty =
      if (o.file z c).length ≤ n ∧ o.ty = ty then some o else none := by
  have err : ∀ {α : Type} {x : Except LoadError α} {g : α → Obj}, (∃ e, x = .error e) → x.toOption.map g = none := by
    rintro _ _ _ ⟨e, rfl⟩; rfl
  by_cases hty : o.ty = ty
  · by_cases hn : (o.file z c).length ≤ n
    · rw [if_pos ⟨hn, hty⟩, List.take_of_length_le hn]
      subst hty
      cases o with
      | sdf s => show (sdfFormat.load z (some (sdfFormat.save z s c))).toOption.map _ = _
                 rw [(sdf_ok s hf.1 hf.2).load_save hz c]; rfl
      | cmap s => show (cmapFormat.load z (some (cmapFormat.save z s c))).toOption.map _ = _
                  rw [(cmap_ok s hf.1 hf.2).load_save hz c]; rfl
      | tmap s => show (tmapFormat.load z (some (tmapFormat.save z s c))).toOption.map _ = _
                  rw [(tmap_ok s hf.1 hf.2).load_save hz c]; rfl
    · rw [if_neg (fun h => hn h.1)]
      subst hty
      have hn' : n < (o.file z c).length := Nat.lt_of_not_le hn
      cases o with
      | sdf s => exact err (same_prefix (sdf_ok s hf.1 hf.2) hp c n hn')
      | cmap s => exact err (same_prefix (cmap_ok s hf.1 hf.2) hp c n hn')
      | tmap s => exact err (same_prefix (tmap_ok s hf.1 hf.2) hp c n hn')
  · rw [if_neg (fun h => hty h.2)]
    cases o <;> cases ty <;> first
      | exact absurd rfl hty
      | (apply err; apply other_prefix <;> decide)

theorem sent_eq {z : Zlib} (hz : ZlibOk z) {o : Obj} (hf : Fits o) : o.sent z = some o := by
  cases o with
  | sdf s => show (sdfFormat.ofMsg z (sdfFormat.toMsg z s)).toOption.map _ = _
             rw [(sdf_ok s hf.1 hf.2).msg hz]; rfl
  | cmap s => show (cmapFormat.ofMsg z (cmapFormat.toMsg z s)).toOption.map _ = _
              rw [(cmap_ok s hf.1 hf.2).msg hz]; rfl
  | tmap s => show (tmapFormat.ofMsg z (tmapFormat.toMsg z s)).toOption.map _ = _
              rw [(tmap_ok s hf.1 hf.2).msg hz]; rfl

/-! ## Simulation -/

/-- The number of bytes of a file. -/
def fileSize (z : Zlib) (o : Obj) (c : Bool) : Nat := (o.file z c).length

/-- The bytes of a file against its contents. -/
inductive Holds (z : Zlib) : Option (List UInt8) → Option Content → Prop
  | none : Holds z none none
  | whole {o : Obj} {c : Bool} {n : Nat} : Fits o → Sound o → (o.file z c).length ≤ n →
      Holds z (some ((o.file z c).take n)) (some (.whole o))
  | broken {o : Obj} {c : Bool} {n : Nat} : Fits o → ¬ (o.file z c).length ≤ n →
      Holds z (some ((o.file z c).take n)) (some .broken)

structure Sim (z : Zlib) (w : World) (v : Ideal) : Prop where
  mem : w.mem = v.mem
  good : ∀ k o, v.mem k = some o → Fits o ∧ Sound o
  files : ∀ p, Holds z (w.files p) (v.files p)

theorem Sim.put {z : Zlib} {w : World} {v : Ideal} (h : Sim z w v) (k : Nat) {x : Option Obj}
    (hx : ∀ o, x = some o → Fits o ∧ Sound o) :
    Sim z ⟨Function.update w.mem k x, w.files⟩ ⟨Function.update v.mem k x, v.files⟩ := by
  refine ⟨by rw [h.mem], fun j o ho => ?_, h.files⟩
  simp only [Function.update_apply] at ho
  split at ho
  · exact hx o ho
  · exact h.good j o ho

theorem Sim.step {z : Zlib} (hz : ZlibOk z) (hp : ZlibRefusesPrefixes z) {w : World} {v : Ideal} (h : Sim z w v) {s : Step}
    (hnew : ∀ k o, s = .new k o → Fits o ∧ Sound o) :
    Sim z (w.step z s).1 (v.step (fileSize z) s).1 ∧ (w.step z s).2 = (v.step (fileSize z) s).2 := by
  cases s with
  | new k o =>
    exact ⟨h.put k (fun o' e => by rw [← Option.some.inj e]; exact hnew k o rfl), rfl⟩
  | call k c =>
    refine ⟨?_, rfl⟩
    simp only [World.step, Ideal.step]
    rw [h.mem]
    have := h.put k (x := (v.mem k).map (·.apply c)) (fun o' e => by
      obtain ⟨o, ho, rfl⟩ := Option.map_eq_some_iff.mp e
      obtain ⟨a, b⟩ := h.good k o ho
      exact (apply_ok b a c).symm)
    rwa [h.mem] at this
  | save k path c fate =>
    simp only [World.step, Ideal.step, h.mem]
    cases hk : v.mem k with
    | none => exact ⟨h, rfl⟩
    | some o =>
      cases fate with
      | refused => exact ⟨h, rfl⟩
      | wrote n =>
        refine ⟨⟨rfl, h.good, fun p => ?_⟩, rfl⟩
        simp only
        by_cases hpath : p = path
        · rw [if_pos hpath, if_pos hpath]
          obtain ⟨a, b⟩ := h.good k o hk
          by_cases hn : (o.file z c).length ≤ n
          · rw [if_pos (show fileSize z o c ≤ n from hn)]; exact .whole a b hn
          · rw [if_neg (show ¬ fileSize z o c ≤ n from hn)]; exact .broken a hn
        · rw [if_neg hpath, if_neg hpath]; exact h.files p
  | load ty path k =>
    simp only [World.step, Ideal.step]
    have hf := h.files path
    generalize w.files path = a at hf
    generalize hb : v.files path = b at hf
    cases hf with
    | none =>
      have : loadAs z none ty = none := by cases ty <;> rfl
      rw [this]
      exact ⟨h, rfl⟩
    | @whole o c n hfit hso hn =>
      rw [loadAs_file hz hp hfit]
      by_cases hty : o.ty = ty
      · rw [if_pos ⟨hn, hty⟩]
        simp only [hty, if_true]
        exact ⟨h.put k (fun o' e => by rw [← Option.some.inj e]; exact ⟨hfit, hso⟩), trivial⟩
      · rw [if_neg (fun h => hty h.2)]
        simp only [hty, if_false]
        exact ⟨h, trivial⟩
    | broken hfit hn =>
      rw [loadAs_file hz hp hfit, if_neg (fun h => hn h.1)]
      exact ⟨h, rfl⟩
  | send k k' =>
    simp only [World.step, Ideal.step, h.mem]
    cases hk : v.mem k with
    | none => exact ⟨h, rfl⟩
    | some o =>
      have hg := h.good k o hk
      simp only [sent_eq hz hg.1]
      have := h.put k' (x := some o) (fun o' e => by rw [← Option.some.inj e]; exact hg)
      rw [h.mem] at this
      exact ⟨this, trivial⟩
  | restart => exact ⟨⟨rfl, fun k o ho => by simp [Ideal.step] at ho, h.files⟩, rfl⟩

theorem Sim.run {z : Zlib} (hz : ZlibOk z) (hp : ZlibRefusesPrefixes z) (l : List Step) : ∀ {w : World} {v : Ideal},
    Sim z w v → (∀ k o, Step.new k o ∈ l → Fits o ∧ Sound o) →
    Sim z (w.run z l) (v.run (fileSize z) l) ∧ w.replies z l = v.replies (fileSize z) l := by
  induction l with
  | nil => intro w v h _; exact ⟨h, rfl⟩
  | cons s l ih =>
    intro w v h hnew
    obtain ⟨h1, h2⟩ := h.step hz hp (s := s) (fun k o e => hnew k o (by rw [e]; exact List.mem_cons_self ..))
    obtain ⟨h3, h4⟩ := ih h1 (fun k o e => hnew k o (List.mem_cons_of_mem _ e))
    refine ⟨h3, ?_⟩
    simp only [World.replies, Ideal.replies]
    rw [h2, h4]

end Serial

/-- C138.  A program that works with any number of maps of the three types, saves them (also with failing and
interrupted saves), loads them under any type, sends them as messages, ends and starts again, sees exactly what it would
see if files and messages held the objects themselves: every step throws or not alike, and at the end every object in
memory is the same, bit for bit. -/
theorem C138_sessions {z : Zlib} (hz : ZlibOk z) (hp : ZlibRefusesPrefixes z) (l : List Step)
    (hnew : ∀ k o, Step.new k o ∈ l → Fits o ∧ Sound o) :
    World.start.replies z l = Ideal.start.replies (fileSize z) l ∧
      ∀ k, (World.start.run z l).mem k = (Ideal.start.run (fileSize z) l).mem k := by
  obtain ⟨h1, h2⟩ := Sim.run hz hp l (w := World.start) (v := Ideal.start)
    ⟨rfl, fun k o ho => by simp [Ideal.start] at ho, fun p => .none⟩ hnew
  exact ⟨h2, fun k => by rw [h1.mem]⟩

/-! ## What this means for the maps -/

namespace Spec

/-- The steps do not open the file. -/
def LeavesFile (p : String) (l : List Step) : Prop :=
  ∀ s ∈ l, ∀ k path c n, s = .save k path c (.wrote n) → path ≠ p

/-- Fresh from a constructor with dimensions (the size of the grid fits the labels). -/
def Fresh : Obj → Prop
  | .sdf s => ∃ d oob, s.map = Sdf.create d oob
  | .cmap m => ∃ d dflt oob, d.size < 2 ^ 32 ∧ m.map = CMap.create d dflt oob
  | .tmap t => ∃ junk d dflt oob, d.size < 2 ^ 32 ∧ t.map = TMap.create junk d dflt oob

end Spec

namespace Serial

theorem ideal_files {size : Obj → Bool → Nat} {p : String} (l : List Step) : ∀ (v : Ideal), LeavesFile p l →
    (v.run size l).files p = v.files p := by
  induction l with
  | nil => intro v _; rfl
  | cons s l ih =>
    intro v h
    show ((v.step size s).1.run size l).files p = _
    rw [ih _ (fun s' hs' => h s' (List.mem_cons_of_mem _ hs'))]
    have h1 := h s (List.mem_cons_self ..)
    cases s with
    | new k o => rfl
    | call k c => rfl
    | save k path c fate =>
      simp only [Ideal.step]
      split
      · rename_i n _
        exact if_neg fun e => h1 k path c n rfl e.symm
      · rfl
    | load ty path k =>
      simp only [Ideal.step]
      split
      · split <;> rfl
      · rfl
    | send k k' =>
      simp only [Ideal.step]
      split <;> rfl
    | restart => rfl

theorem ideal_run_append (size : Obj → Bool → Nat) (v : Ideal) (a b : List Step) :
    v.run size (a ++ b) = (v.run size a).run size b := List.foldl_append ..

theorem ideal_calls (size : Obj → Bool → Nat) (k : Nat) (cs : List Call) : ∀ (v : Ideal) (o : Obj), v.mem k = some o →
    (v.run size (cs.map (.call k))).mem k = some (cs.foldl Obj.apply o) := by
  induction cs with
  | nil => intro v o h; exact h
  | cons c cs ih =>
    intro v o h
    show ((v.step size (.call k c)).1.run size (cs.map (.call k))).mem k = _
    exact ih _ (o.apply c) (by simp [Ideal.step, h])

/-- A property of objects that new objects have and calls keep. -/
theorem ideal_keeps {size : Obj → Bool → Nat} {Q : Obj → Prop} (hc : ∀ o c, Q o → Q (o.apply c)) (l : List Step) :
    ∀ (v : Ideal), (∀ k o, Step.new k o ∈ l → Q o) →
    ((∀ k o, v.mem k = some o → Q o) ∧ (∀ p o, v.files p = some (.whole o) → Q o)) →
    (∀ k o, (v.run size l).mem k = some o → Q o) ∧ (∀ p o, (v.run size l).files p = some (.whole o) → Q o) := by
  induction l with
  | nil => intro v _ h; exact h
  | cons s l ih =>
    intro v hnew ⟨hm, hf⟩
    refine ih _ (fun k o h => hnew k o (List.mem_cons_of_mem _ h)) ?_
    have put : ∀ (k : Nat) (x : Option Obj), (∀ o, x = some o → Q o) →
        ∀ j o, Function.update v.mem k x j = some o → Q o := by
      intro k x hx j o ho
      simp only [Function.update_apply] at ho
      split at ho
      · exact hx o ho
      · exact hm j o ho
    cases s with
    | new k o =>
      exact ⟨put k _ (fun o' e => by rw [← Option.some.inj e]; exact hnew k o (List.mem_cons_self ..)), hf⟩
    | call k c =>
      refine ⟨put k _ (fun o' e => ?_), hf⟩
      obtain ⟨o, ho, rfl⟩ := Option.map_eq_some_iff.mp e
      exact hc o c (hm k o ho)
    | save k path c fate =>
      simp only [Ideal.step]
      split
      · rename_i o n hk
        refine ⟨hm, fun p o' ho => ?_⟩
        simp only at ho
        split at ho
        · split at ho
          · simp only [Option.some.injEq, Content.whole.injEq] at ho
            rw [← ho]; exact hm k o hk
          · simp at ho
        · exact hf p o' ho
      · exact ⟨hm, hf⟩
    | load ty path k =>
      simp only [Ideal.step]
      split
      · rename_i o hp
        split
        · exact ⟨put k _ (fun o' e => by rw [← Option.some.inj e]; exact hf path o hp), hf⟩
        · exact ⟨hm, hf⟩
      · exact ⟨hm, hf⟩
    | send k k' =>
      simp only [Ideal.step]
      split
      · rename_i o hk
        exact ⟨put k' _ (fun o' e => by rw [← Option.some.inj e]; exact hm k o hk), hf⟩
      · exact ⟨hm, hf⟩
    | restart => exact ⟨fun k o ho => by simp [Ideal.step] at ho, hf⟩

end Serial

/-- C138, going on with a saved map.  Object `k` is saved completely; anything happens that does not open the file
(other saves, other maps, the end of the process); the file is loaded and more calls follow.  The load does not throw,
and the object is the saved one after these calls. -/
theorem C138_continue {z : Zlib} (hz : ZlibOk z) (hp : ZlibRefusesPrefixes z) (before mid : List Step) (k k' n : Nat)
    (path : String) (c : Bool) (cs : List Call) {o : Obj}
    (hnew : ∀ k o, Step.new k o ∈ before ++ mid → Fits o ∧ Sound o) (ho : (World.start.run z before).mem k = some o)
    (hn : (o.file z c).length ≤ n) (hmid : LeavesFile path mid) :
    let w := World.start.run z (before ++ (.save k path c (.wrote n) :: mid))
    (w.step z (.load o.ty path k')).2 = true ∧
      ((w.step z (.load o.ty path k')).1.run z (cs.map (.call k'))).mem k' = some (cs.foldl Obj.apply o) := by
  intro w
  have hnew' : ∀ j x, Step.new j x ∈ before ++ (.save k path c (.wrote n) :: mid) → Fits x ∧ Sound x := by
    intro j x hx
    apply hnew j x
    simp only [List.mem_append, List.mem_cons, reduceCtorEq, false_or] at hx ⊢
    exact hx
  have h0 : Sim z World.start Ideal.start := ⟨rfl, fun k o ho => by simp [Ideal.start] at ho, fun p => .none⟩
  obtain ⟨hb, -⟩ := Sim.run hz hp before h0 (fun j x hx => hnew j x (List.mem_append_left _ hx))
  obtain ⟨hs, -⟩ := Sim.run hz hp (before ++ (.save k path c (.wrote n) :: mid)) h0 hnew'
  rw [hb.mem] at ho
  have hfile : (Ideal.start.run (fileSize z) (before ++ (.save k path c (.wrote n) :: mid))).files path =
      some (.whole o) := by
    rw [ideal_run_append]
    show (((Ideal.start.run (fileSize z) before).step (fileSize z) (.save k path c (.wrote n))).1.run (fileSize z) mid).files
      path = _
    rw [ideal_files mid _ hmid]
    simp only [Ideal.step, ho, if_true]
    rw [if_pos (show fileSize z o c ≤ n from hn)]
  obtain ⟨h1, h2⟩ := hs.step hz hp (s := .load o.ty path k') (fun _ _ e => by simp at e)
  have hl : (Ideal.start.run (fileSize z) (before ++ (.save k path c (.wrote n) :: mid))).step (fileSize z)
      (.load o.ty path k') = (⟨Function.update (Ideal.start.run (fileSize z)
        (before ++ (.save k path c (.wrote n) :: mid))).mem k' (some o), (Ideal.start.run (fileSize z)
        (before ++ (.save k path c (.wrote n) :: mid))).files⟩, true) := by
    simp only [Ideal.step, hfile, if_true]
  rw [hl] at h1 h2
  refine ⟨h2, ?_⟩
  obtain ⟨h3, -⟩ := Sim.run hz hp (cs.map (.call k')) h1 (fun j x hx => by simp at hx)
  rw [h3.mem]
  exact ideal_calls _ _ _ _ _ (by simp)

/-- C138, calls and maps: the calls act on the map of an object as in the models of the three types, and leave the
geometry and the frame alone. -/
theorem C138_calls :
    (∀ (s : SdfRec) (ops : List (Sdf.Op Idx F32)), ∃ s', (ops.map Call.sdf).foldl Obj.apply (.sdf s) = .sdf s' ∧
      s'.map = s.map.run id ops ∧ s'.frame = s.frame ∧
      { s'.base with data := s.base.data, oob := s.base.oob } = s.base) ∧
    (∀ (m : CMapRec) (ops : List CMap.Op), m.map.grid.WF → ∃ m', (ops.map Call.cmap).foldl Obj.apply (.cmap m) = .cmap m' ∧
      m'.map = m.map.run ops ∧ m'.frame = m.frame ∧
      { m'.base with data := m.base.data, oob := m.base.oob } = m.base) ∧
    (∀ (t : TMapRec) (ops : List TMap.Op), t.map.grid.WF → ∃ t', (ops.map Call.tmap).foldl Obj.apply (.tmap t) = .tmap t' ∧
      t'.map = t.map.run ops ∧ t'.frame = t.frame ∧
      { t'.base with data := t.base.data, oob := t.base.oob } = t.base) := by
  refine ⟨fun s ops => ?_, fun s ops => ?_, fun s ops => ?_⟩
  · induction ops generalizing s with
    | nil => exact ⟨s, rfl, rfl, rfl, rfl⟩
    | cons a ops ih =>
      obtain ⟨s', h1, h2, h3, h4⟩ := ih (s.withMap (s.map.apply id a).1)
      rw [sdf_view s (sdf_apply_same s.map a).1 (sdf_apply_same s.map a).2] at h2
      refine ⟨s', h1, h2, h3, ?_⟩
      have := congrArg (fun b : Base F32 => { b with data := s.base.data, oob := s.base.oob }) h4
      exact this
  · induction ops generalizing s with
    | nil => intro _; exact ⟨s, rfl, rfl, rfl, rfl⟩
    | cons a ops ih =>
      intro hw
      obtain ⟨hw', hd, hf⟩ := cmap_apply_same hw a
      have e := cmap_view s hd hf
      obtain ⟨s', h1, h2, h3, h4⟩ := ih (s.withMap (s.map.apply a)) (by rw [e]; exact hw')
      rw [e] at h2
      refine ⟨s', h1, h2, h3, ?_⟩
      have := congrArg (fun b : Base CCell => { b with data := s.base.data, oob := s.base.oob }) h4
      exact this
  · induction ops generalizing s with
    | nil => intro _; exact ⟨s, rfl, rfl, rfl, rfl⟩
    | cons a ops ih =>
      intro hw
      obtain ⟨hw', hd, hf⟩ := tmap_apply_same hw a
      have e := tmap_view s hd hf
      obtain ⟨s', h1, h2, h3, h4⟩ := ih (s.withMap (s.map.apply a)) (by rw [e]; exact hw')
      rw [e] at h2
      refine ⟨s', h1, h2, h3, ?_⟩
      have := congrArg (fun b : Base TCell => { b with data := s.base.data, oob := s.base.oob }) h4
      exact this

/-- C138, flags.  In every such program, also across files, messages and restarts: if an object in memory says that its
components are valid, they are those of its contents. -/
theorem C138_flags {z : Zlib} (hz : ZlibOk z) (hp : ZlibRefusesPrefixes z) (l : List Step)
    (hnew : ∀ k o, Step.new k o ∈ l → Fits o ∧ Fresh o) (k : Nat) :
    (∀ r : CMapRec, (World.start.run z l).mem k = some (.cmap r) → r.map.getNumCC.2 = true →
      IsComponentLabelling r.map (fun i => ((r.map.getImm i).1).comp.toNat) r.map.getNumCC.1) ∧
    (∀ r : TMapRec, (World.start.run z l).mem k = some (.tmap r) → r.map.getNumCC.2 = true →
      IsTaggedLabelling r.map (fun i => ((r.map.getImm i).1).comp.toNat) r.map.getNumCC.1) := by
  have hsound : ∀ o, Fresh o → Sound o := by
    intro o ho
    cases o with
    | sdf s => obtain ⟨d, oob, e⟩ := ho; show s.map.grid.WF; rw [e]; exact Grid.wf_mk' _ _ _
    | cmap s => obtain ⟨d, df, oob, -, e⟩ := ho; show s.map.grid.WF; rw [e]; exact Grid.wf_mk' _ _ _
    | tmap s => obtain ⟨j, d, df, oob, -, e⟩ := ho; show s.map.grid.WF; rw [e]; exact Grid.wf_mk' _ _ _
  obtain ⟨-, hm⟩ := C138_sessions hz hp l (fun k o h => ⟨(hnew k o h).1, hsound o (hnew k o h).2⟩)
  let Q : Obj → Prop
    | .sdf _ => True
    | .cmap r => r.map.dims.size < 2 ^ 32 ∧ r.map.grid.WF ∧ FlagHonest r.map
    | .tmap r => r.map.dims.size < 2 ^ 32 ∧ r.map.grid.WF ∧ TMap.Honest r.map
  have hc : ∀ o c, Q o → Q (o.apply c) := by
    intro o c ho
    cases o with
    | sdf s => cases c <;> trivial
    | cmap s =>
      cases c with
      | cmap a =>
        obtain ⟨h1, h2, h3⟩ := ho
        obtain ⟨-, hd, hf⟩ := cmap_apply_same h2 a
        have e := cmap_view s hd hf
        obtain ⟨i1, i2, i3⟩ := CMap.apply_inv _ h1 s.map ⟨h2, rfl, h3⟩ a
        show (s.withMap _).map.dims.size < _ ∧ (s.withMap _).map.grid.WF ∧ FlagHonest (s.withMap _).map
        rw [e]
        exact ⟨by rw [i2]; exact h1, i1, i3⟩
      | sdf _ => exact ho
      | tmap _ => exact ho
    | tmap s =>
      cases c with
      | tmap a =>
        obtain ⟨h1, h2, h3⟩ := ho
        obtain ⟨-, hd, hf⟩ := tmap_apply_same h2 a
        have e := tmap_view s hd hf
        obtain ⟨i1, i2, i3⟩ := TMap.apply_inv _ h1 s.map ⟨h2, rfl, h3⟩ a
        show (s.withMap _).map.dims.size < _ ∧ (s.withMap _).map.grid.WF ∧ TMap.Honest (s.withMap _).map
        rw [e]
        exact ⟨by rw [i2]; exact h1, i1, i3⟩
      | sdf _ => exact ho
      | cmap _ => exact ho
  obtain ⟨hq, -⟩ := ideal_keeps (size := fileSize z) hc l Ideal.start (fun k o h => by
      have h2 := (hnew k o h).2
      cases o with
      | sdf s => trivial
      | cmap s =>
        obtain ⟨d, df, oob, hsz, e⟩ := h2
        show s.map.dims.size < _ ∧ s.map.grid.WF ∧ FlagHonest s.map
        rw [e]
        exact ⟨hsz, Grid.wf_mk' _ _ _, fun h => by simp [CMap.create] at h⟩
      | tmap s =>
        obtain ⟨j, d, df, oob, hsz, e⟩ := h2
        show s.map.dims.size < _ ∧ s.map.grid.WF ∧ TMap.Honest s.map
        rw [e]
        exact ⟨hsz, Grid.wf_mk' _ _ _, fun h => by simp [TMap.create] at h⟩)
    ⟨fun k o ho => by simp [Ideal.start] at ho, fun k o ho => by simp [Ideal.start] at ho⟩
  constructor
  · intro r hr hv
    rw [hm] at hr
    exact (hq k _ hr).2.2 hv
  · intro r hr hv
    rw [hm] at hr
    exact (hq k _ hr).2.2 hv

theorem setAllValues_run (m : CMap) (hist : List (Idx × CCell)) :
    m.setAllValues hist = m.run (hist.map fun w => .setValue w.1 w.2) := by
  unfold CMap.setAllValues CMap.run
  rw [List.foldl_map]
  rfl

/-- C138, cells.  A collision map is created and written to (`hist`), saved completely (all bytes of the file were
written), the process ends (and anything may happen that does not open the file), the file is loaded and the map written
to again (`hist'`): every cell reads as the last value written to it before or after, or the default. -/
theorem C138_cells {z : Zlib} (hz : ZlibOk z) (hp : ZlibRefusesPrefixes z) {r : CMapRec} (hfit : Fits (.cmap r)) {d : Dims}
    {dflt oob : CCell} (hr : r.map = CMap.create d dflt oob) (hist hist' : List (Idx × CCell)) (path : String) (c : Bool)
    (n : Nat) (first : List Step)
    (hfirst : first = .new 0 (.cmap r) :: hist.map fun w => .call 0 (.cmap (.setValue w.1 w.2)))
    (hn : ∀ o, (World.start.run z first).mem 0 = some o → (o.file z c).length ≤ n)
    (mid : List Step) (hnew : ∀ k o, Step.new k o ∈ mid → Fits o ∧ Sound o) (hmid : LeavesFile path mid) :
    ∃ r' : CMapRec, (World.start.run z
        (first ++ [.save 0 path c (.wrote n), .restart] ++ mid ++ [.load .cmap path 1] ++
          hist'.map (fun w => .call 1 (.cmap (.setValue w.1 w.2))))).mem 1 = some (.cmap r') ∧ r'.frame = r.frame ∧
      ∀ i, InBounds d i → r'.map.getImm i = ((lastWrite (hist ++ hist') i).getD dflt, true) := by
  subst hfirst
  have hw : r.map.grid.WF := by rw [hr]; exact Grid.wf_mk' _ _ _
  obtain ⟨r1, h1, h1m, h1f, h1b⟩ := C138_calls.2.1 r (hist.map fun w => .setValue w.1 w.2) hw
  have hw1 : r1.map.grid.WF := by
    rw [h1m, ← setAllValues_run]; exact (CMap.setAllValues_spec hist _ hw).1
  obtain ⟨r2, h2, h2m, h2f, h2b⟩ := C138_calls.2.1 r1 (hist'.map fun w => .setValue w.1 w.2) hw1
  have hnew0 : ∀ k o, Step.new k o ∈ [Step.new 0 (.cmap r)] ++ hist.map (fun w => Step.call 0 (.cmap (.setValue w.1 w.2))) →
      Fits o ∧ Sound o := by
    intro k o h
    simp only [List.mem_append, List.mem_singleton, List.mem_map, reduceCtorEq, and_false, exists_false, or_false,
      Step.new.injEq] at h
    rw [h.2]; exact ⟨hfit, hw⟩
  have hmem : (World.start.run z ([Step.new 0 (.cmap r)] ++ hist.map (fun w => Step.call 0 (.cmap (.setValue w.1 w.2))))).mem 0
      = some (.cmap r1) := by
    rw [(C138_sessions hz hp _ hnew0).2, ideal_run_append, ← h1, List.map_map]
    have := ideal_calls (fileSize z) 0 (hist.map fun w => Call.cmap (.setValue w.1 w.2))
      (Ideal.start.run (fileSize z) [Step.new 0 (.cmap r)]) (.cmap r) (by simp [Ideal.run, Ideal.step])
    rw [List.map_map] at this
    exact this
  have hlen : (Obj.file z c (.cmap r1)).length ≤ n := hn _ hmem
  obtain ⟨-, h3⟩ := C138_continue hz hp _ (.restart :: mid) 0 1 n path c
    (hist'.map fun w => Call.cmap (.setValue w.1 w.2)) (o := .cmap r1)
    (by
      intro k o h
      rw [List.mem_append] at h
      rcases h with h | h
      · exact hnew0 k o h
      · simp only [List.mem_cons, reduceCtorEq, false_or] at h
        exact hnew k o h)
    hmem hlen
    (by
      intro s hs
      rcases List.mem_cons.mp hs with rfl | hs
      · intro k p c n e; simp at e
      · exact hmid s hs)
  refine ⟨r2, ?_, h2f.trans h1f, ?_⟩
  · rw [← h2, List.map_map]
    simp only [World.run, List.foldl_append, List.foldl_cons, List.foldl_nil, List.map_map] at h3 ⊢
    exact h3
  · intro i hi
    rw [h2m, h1m, ← setAllValues_run, ← setAllValues_run, hr]
    have : ((CMap.create d dflt oob).setAllValues hist).setAllValues hist' =
        (CMap.create d dflt oob).setAllValues (hist ++ hist') := by
      unfold CMap.setAllValues; rw [List.foldl_append]
    rw [this]
    exact C01_fresh d dflt oob _ i hi

/-! ### The hypotheses are satisfiable -/

/-- A new collision map of 2×1×1 cells. -/
def exNewMap : CMapRec :=
  ⟨{ blankBase ⟨0, 0⟩ with numX := 2, numY := 1, numZ := 1, data := [⟨0, 0⟩, ⟨0, 0⟩] }, 0, ascii "world", false⟩

/-- A program with a complete save, an interrupted save and a restart.  Loading the file as another type, loading the
incomplete file and loading a missing file throw; loading the file gives the map. -/
def exProgram : List Step :=
  [.new 0 (.cmap exNewMap), .call 0 (.cmap (.setValue ⟨1, 0, 0⟩ ⟨F32.one, 0⟩)), .call 0 (.cmap .update),
    .save 0 "a" false (.wrote 1000), .save 0 "b" true (.wrote 10), .restart, .load .sdf "a" 1, .load .cmap "b" 1,
    .load .cmap "c" 1, .load .cmap "a" 1, .send 1 2]

example : (ZlibOk ⟨exZip, exUnzip⟩ ∧ ZlibRefusesPrefixes ⟨exZip, exUnzip⟩) ∧
    (∀ k o, Step.new k o ∈ exProgram → Fits o ∧ Fresh o) ∧
    World.start.replies ⟨exZip, exUnzip⟩ exProgram =
      [true, true, true, true, true, true, false, false, false, true, true] ∧
    ∃ r, (World.start.run ⟨exZip, exUnzip⟩ exProgram).mem 2 = some (.cmap r) ∧ r.map.getNumCC = (2, true) ∧
      r.map.getImm ⟨1, 0, 0⟩ = (⟨F32.one, 2⟩, true) := by
  have hnew : ∀ k o, Step.new k o ∈ exProgram → Fits o ∧ Fresh o := by
    intro k o h
    simp only [exProgram, List.mem_cons, Step.new.injEq, reduceCtorEq, List.not_mem_nil, or_false] at h
    rw [h.2]
    exact ⟨⟨by unfold FitsMemory; decide, by unfold FitsMemory; decide⟩, ⟨2, 1, 1⟩, ⟨0, 0⟩, ⟨0, 0⟩, by decide, rfl⟩
  refine ⟨exZlib_ok, hnew, by decide +kernel, ?_⟩
  have : ((World.start.run ⟨exZip, exUnzip⟩ exProgram).mem 2).any (fun o => match o with
      | .cmap r => decide (r.map.getNumCC = (2, true) ∧ r.map.getImm ⟨1, 0, 0⟩ = (⟨F32.one, 2⟩, true))
      | _ => false) = true := by decide +kernel
  obtain ⟨o, ho, h⟩ := (Option.any_eq_true ..).mp this
  cases o with
  | cmap r => exact ⟨r, ho, (of_decide_eq_true h).1, (of_decide_eq_true h).2⟩
  | sdf _ => simp at h
  | tmap _ => simp at h

end Verif
