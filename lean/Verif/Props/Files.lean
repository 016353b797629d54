import Verif.Files
import Verif.Props.Serial

/-!
# C100: what a file holds after a history of saves
-/

namespace Verif

open Spec Serial

namespace Spec

/-- `e` is the last call of the history that opened the file `p`. -/
def LastOpened {M : Type} (l : List (SaveCall M)) (p : String) (e : SaveCall M) : Prop :=
  ∃ before after, l = before ++ e :: after ∧ e.path = p ∧ e.fate ≠ .refused ∧
    ∀ x ∈ after, x.path ≠ p ∨ x.fate = .refused

/-- No call of the history opened the file `p`. -/
def NeverOpened {M : Type} (l : List (SaveCall M)) (p : String) : Prop := ∀ x ∈ l, x.path ≠ p ∨ x.fate = .refused

/-- All bytes of the call reached the file. -/
def Complete {M : Type} (f : Format M) (z : Zlib) (e : SaveCall M) : Prop :=
  ∃ n, e.fate = .wrote n ∧ (f.save z e.map e.compress).length ≤ n

/-- A load gives the map of the last call that opened the file if that call was complete, and an error
otherwise; files that were never opened are as before. -/
def HoldsLast {M : Type} (f : Format M) (z : Zlib) (fs : Files) (l : List (SaveCall M)) : Prop :=
  ∀ p, (NeverOpened l p → Files.run f z fs l p = fs p) ∧
    ∀ e, LastOpened l p e →
      (Complete f z e → f.load z (Files.run f z fs l p) = .ok e.map) ∧
      (¬ Complete f z e → ∃ err, f.load z (Files.run f z fs l p) = .error err)

end Spec

namespace Serial

theorem run_never {M : Type} (f : Format M) (z : Zlib) (fs : Files) (l : List (SaveCall M)) (p : String)
    (h : NeverOpened l p) : Files.run f z fs l p = fs p := by
  induction l generalizing fs with
  | nil => rfl
  | cons e l ih =>
    show Files.run f z (Files.save f z fs e) l p = _
    rw [ih _ fun x hx => h x (List.mem_cons_of_mem _ hx)]
    unfold Files.save
    rcases h e List.mem_cons_self with h1 | h1
    · cases e.fate with
      | refused => rfl
      | wrote n => exact if_neg fun h => h1 h.symm
    · rw [h1]

theorem holds_last {M : Type} (f : Format M) (z : Zlib) (hz : ZlibOk z) (hp : ZlibRefusesPrefixes z) (fs : Files)
    (l : List (SaveCall M)) (hok : ∀ e ∈ l, ∃ bytes, f.Ok e.map bytes) : HoldsLast f z fs l := by
  refine fun p => ⟨run_never f z fs l p, ?_⟩
  rintro e ⟨before, after, rfl, hpath, hfate, hafter⟩
  obtain ⟨bytes, ok⟩ := hok e (by simp)
  have hrun : Files.run f z fs (before ++ e :: after) p = Files.save f z (Files.run f z fs before) e p := by
    have : Files.run f z fs (before ++ e :: after) =
        Files.run f z (Files.save f z (Files.run f z fs before) e) after := by
      simp [Files.run, List.foldl_append]
    rw [this, run_never f z _ after p hafter]
  cases hf : e.fate with
  | refused => exact absurd hf hfate
  | wrote n =>
    have hs : Files.save f z (Files.run f z fs before) e p = some ((f.save z e.map e.compress).take n) := by
      unfold Files.save
      rw [hf]
      exact if_pos hpath.symm
    rw [hrun, hs]
    constructor
    · rintro ⟨k, hk, hlen⟩
      rw [hf] at hk
      rw [Fate.wrote.inj hk, List.take_of_length_le hlen]
      exact ok.load_save hz _
    · intro hc
      have hlt : n < (f.save z e.map e.compress).length := by
        by_contra hge
        exact hc ⟨n, hf, Nat.le_of_not_lt hge⟩
      cases hcomp : e.compress with
      | false =>
        rw [hcomp] at hlt
        rcases ok.truncated z n hlt with h | h <;> exact ⟨_, h⟩
      | true =>
        rw [hcomp] at hlt
        exact f.truncatedZ ok.z4 ok.znz ok.zz z hp n e.map hlt

end Serial

/-- C100 (part): for every history of saves, with any failures and interruptions, a load never returns anything but
the map of the last save that opened the file: it returns that map if all bytes were written and throws otherwise. -/
theorem C100_history_partial (z : Zlib) (hz : ZlibOk z) (hp : ZlibRefusesPrefixes z) (fs : Files) :
    (∀ l : List (SaveCall SdfRec), (∀ e ∈ l, FitsMemory e.map.base.data ∧ FitsMemory e.map.frame) →
      HoldsLast sdfFormat z fs l) ∧
    (∀ l : List (SaveCall CMapRec), (∀ e ∈ l, FitsMemory e.map.base.data ∧ FitsMemory e.map.frame) →
      HoldsLast cmapFormat z fs l) ∧
    (∀ l : List (SaveCall TMapRec), (∀ e ∈ l, FitsMemory e.map.base.data ∧ FitsMemory e.map.frame) →
      HoldsLast tmapFormat z fs l) :=
  ⟨fun l h => holds_last _ z hz hp fs l fun e he => ⟨_, sdf_ok e.map (h e he).1 (h e he).2⟩,
   fun l h => holds_last _ z hz hp fs l fun e he => ⟨_, cmap_ok e.map (h e he).1 (h e he).2⟩,
   fun l h => holds_last _ z hz hp fs l fun e he => ⟨_, tmap_ok e.map (h e he).1 (h e he).2⟩⟩

/-- C100 as stated, first half: after a save that returned, a load gives the saved map. -/
def C100Returned : Prop :=
  ∀ (z : Zlib), ZlibOk z → ZlibRefusesPrefixes z → ∀ (fs : Files) (e : SaveCall SdfRec), FitsMemory e.map.base.data →
    FitsMemory e.map.frame → e.returned = true →
    sdfFormat.load z (Files.save sdfFormat z fs e e.path) = .ok e.map

/-- C100 as stated, second half: after a save that was interrupted, a load gives the saved map or what it gave
before. -/
def C100Interrupted : Prop :=
  ∀ (z : Zlib), ZlibOk z → ZlibRefusesPrefixes z → ∀ (fs : Files) (e : SaveCall SdfRec), FitsMemory e.map.base.data →
    FitsMemory e.map.frame →
    sdfFormat.load z (Files.save sdfFormat z fs e e.path) = .ok e.map ∨
    sdfFormat.load z (Files.save sdfFormat z fs e e.path) = sdfFormat.load z (fs e.path)

theorem exZlib_ok : ZlibOk ⟨exZip, exUnzip⟩ ∧ ZlibRefusesPrefixes ⟨exZip, exUnzip⟩ := by
  constructor
  · intro b
    show exUnzip (exZip b) = some b
    induction b with
    | nil => rfl
    | cons x b ih => simp [exZip, exUnzip, ih]
  · intro b
    show ∀ n, n < (exZip b).length → exUnzip ((exZip b).take n) = none
    induction b with
    | nil => intro n hn; simp [exZip] at hn; subst hn; rfl
    | cons x b ih =>
      intro n hn
      match n, hn with
      | 0, _ => rfl
      | 1, _ => rfl
      | n + 2, hn =>
        simp only [exZip, List.length_cons] at hn
        simp [exZip, exUnzip, ih n (by omega)]

/-- C100 is violated: a save to a file that cannot be opened, and a save to a device that is full, return as if
they had succeeded; an interrupted save destroys the map that was in the file. -/
theorem C100_unnoticed : ¬ C100Returned ∧ ¬ C100Interrupted := by
  constructor
  · intro h
    have := h _ exZlib_ok.1 exZlib_ok.2 (fun _ => none) ⟨"field.sdf", exSdfRec, true, .refused, true⟩
      (by unfold FitsMemory; decide +kernel) (by unfold FitsMemory; decide +kernel) rfl
    exact absurd this (by decide)
  · intro h
    let fs : Files := fun _ => some (sdfFormat.save ⟨exZip, exUnzip⟩ exSdfRec false)
    have hl := h _ exZlib_ok.1 exZlib_ok.2 fs ⟨"field.sdf", exSdfRec, false, .wrote 100, false⟩
      (by unfold FitsMemory; decide +kernel) (by unfold FitsMemory; decide +kernel)
    have hold := (C31_sdf ⟨exZip, exUnzip⟩ exZlib_ok.1 exSdfRec (by unfold FitsMemory; decide +kernel)
      (by unfold FitsMemory; decide +kernel)).1 false
    obtain ⟨e, he⟩ := (C33_interrupted_save ⟨exZip, exUnzip⟩ 100).1 exSdfRec (by unfold FitsMemory; decide +kernel)
      (by unfold FitsMemory; decide +kernel) (by decide +kernel)
    have hnew : Files.save sdfFormat ⟨exZip, exUnzip⟩ fs ⟨"field.sdf", exSdfRec, false, .wrote 100, false⟩ "field.sdf" =
        some ((sdfFormat.save ⟨exZip, exUnzip⟩ exSdfRec false).take 100) := rfl
    dsimp only at hl
    rw [hnew, he, hold] at hl
    rcases hl with hl | hl <;> exact absurd hl (by simp)

/-- C100, a full device: for every map with at least one byte missing on the device the save returns and the load
throws. -/
theorem C100_full_device (z : Zlib) (fs : Files) (s : SdfRec) (h1 : FitsMemory s.base.data) (h2 : FitsMemory s.frame)
    (p : String) (n : Nat) (hn : n < (sdfFormat.save z s false).length) :
    ∃ err, sdfFormat.load z (Files.save sdfFormat z fs ⟨p, s, false, .wrote n, true⟩ p) = .error err := by
  have : Files.save sdfFormat z fs ⟨p, s, false, .wrote n, true⟩ p = some ((sdfFormat.save z s false).take n) :=
    if_pos rfl
  rw [this]
  exact (C33_interrupted_save z n).1 s h1 h2 hn

/-! ### The hypotheses are satisfiable -/

/-- Two saves to one file, the second refused, and an interrupted save to another file: the first file still holds
the first map, the second cannot be loaded. -/
example :
    let l : List (SaveCall SdfRec) := [⟨"a", exSdfRec, false, .wrote 1000, true⟩, ⟨"a", hollow, true, .refused, true⟩,
      ⟨"b", hollow, false, .wrote 50, false⟩]
    LastOpened l "a" ⟨"a", exSdfRec, false, .wrote 1000, true⟩ ∧
    sdfFormat.load ⟨exZip, exUnzip⟩ (Files.run sdfFormat ⟨exZip, exUnzip⟩ (fun _ => none) l "a") = .ok exSdfRec ∧
    ∃ err, sdfFormat.load ⟨exZip, exUnzip⟩ (Files.run sdfFormat ⟨exZip, exUnzip⟩ (fun _ => none) l "b") = .error err := by
  intro l
  have hfit : ∀ e ∈ l, FitsMemory e.map.base.data ∧ FitsMemory e.map.frame := by
    intro e he
    simp only [l, List.mem_cons, List.not_mem_nil, or_false] at he
    rcases he with rfl | rfl | rfl <;> unfold FitsMemory <;> decide +kernel
  have H := (C100_history_partial ⟨exZip, exUnzip⟩ exZlib_ok.1 exZlib_ok.2 (fun _ => none)).1 l hfit
  have ha : LastOpened l "a" ⟨"a", exSdfRec, false, .wrote 1000, true⟩ :=
    ⟨[], _, rfl, rfl, by simp, by simp⟩
  have hb : LastOpened l "b" ⟨"b", hollow, false, .wrote 50, false⟩ :=
    ⟨[_, _], [], rfl, rfl, by simp, by simp⟩
  refine ⟨ha, ((H "a").2 _ ha).1 ⟨1000, rfl, by decide +kernel⟩, ((H "b").2 _ hb).2 ?_⟩
  rintro ⟨n, hn, hlen⟩
  have hn : n = 50 := (Fate.wrote.inj hn).symm
  subst hn
  revert hlen
  decide +kernel

end Verif
