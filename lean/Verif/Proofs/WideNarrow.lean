import Verif.Proofs.WideTrace
/-
With less than 256 pool elements the two models are the same.
-/
set_option autoImplicit false
namespace Xcp
open Spec

theorem narrow_width {cfg : Cfg} (h : cfg.maxEnt < 256) : cfg.width = .w8 := if_pos h

theorem num8 (e : Entity) : e.numW .w8 = e.num := rfl
theorem first8 (e : Entity) : e.firstW .w8 = e.first := rfl
theorem setNum8 (e : Entity) (n : Nat) : e.setNumW .w8 n = e.setNum n := rfl
theorem setFirst8 (e : Entity) (n : Nat) : e.setFirstW .w8 n = e.setFirst n := rfl
theorem beyond8 (x n : Nat) : (beyond .w8 x n = true) = (n ≤ x) := by simp [beyond]
theorem mod8 : Width.w8.mod = 256 := rfl

theorem narrow_allocDaq {cfg : Cfg} (h : cfg.maxEnt < 256) (d : Daq) (n : Nat) : wAllocDaq cfg d n = allocDaq cfg d n := by
  unfold wAllocDaq allocDaq
  rw [narrow_width h]
  rfl

theorem narrow_allocOdt {cfg : Cfg} (h : cfg.maxEnt < 256) (d : Daq) (l n : Nat) : wAllocOdt cfg d l n = allocOdt cfg d l n := by
  unfold wAllocOdt allocOdt
  rw [narrow_width h]
  rfl

theorem narrow_mod (a b : Nat) : (a + b % 65536) % 256 = (a + b) % 256 := by omega

theorem narrow_allocOdtEntry {cfg : Cfg} (h : cfg.maxEnt < 256) (d : Daq) (l o n : Nat) :
    wAllocOdtEntry cfg d l o n = allocOdtEntry cfg d l o n := by
  unfold wAllocOdtEntry allocOdtEntry
  rw [narrow_width h]
  simp only [mod8, num8, first8, setNum8, setFirst8, narrow_mod]

theorem narrow_getOdt {cfg : Cfg} (h : cfg.maxEnt < 256) (d : Daq) (l o : Nat) : wGetOdt cfg d l o = getOdt cfg d l o := by
  unfold wGetOdt getOdt
  rw [narrow_width h]
  rfl

theorem narrow_entryIdx {cfg : Cfg} (h : cfg.maxEnt < 256) (d : Daq) (l o e : Nat) :
    wGetOdtEntryIdx cfg d l o e = getOdtEntryIdx cfg d l o e := by
  unfold wGetOdtEntryIdx getOdtEntryIdx
  rw [narrow_width h]
  simp only [mod8, first8, narrow_mod, narrow_getOdt h]

theorem narrow_validate {cfg : Cfg} (h : cfg.maxEnt < 256) (d : Daq) (l o e : Nat) :
    wValidateOdtEntry cfg d l o e = validateOdtEntry cfg d l o e := by
  unfold wValidateOdtEntry validateOdtEntry
  rw [narrow_width h]
  simp only [beyond8, num8, narrow_getOdt h]
  congr 1
  congr 1
  funext l
  congr 1
  congr 1
  funext o
  congr 1
  simp only [beyond]
  by_cases hh : o.num ≤ e
  · simp [hh]
  · simp [hh]; omega

theorem narrow_firstPid {cfg : Cfg} (h : cfg.maxEnt < 256) (d : Daq) (l : Nat) : wGetFirstPid cfg d l = getFirstPid cfg d l := by
  unfold wGetFirstPid getFirstPid
  rw [narrow_width h]
  simp only [beyond8]
  rfl

theorem narrow_write {cfg : Cfg} (h : cfg.maxEnt < 256) : wWriteDaqEntry cfg = writeDaqEntry cfg := by
  funext d a b
  unfold wWriteDaqEntry writeDaqEntry
  rw [narrow_width h, narrow_entryIdx h]
  rfl

theorem narrow_any {cfg : Cfg} (h : cfg.maxEnt < 256) (d : Daq) (l n : Nat) (hn : n < 256) :
    ∀ k i, wAnyEntries cfg d l n i k = anyEntries cfg d l i k
  | 0, i => by unfold wAnyEntries anyEntries; rw [if_neg (by omega)]
  | k + 1, i => by
    unfold wAnyEntries anyEntries
    rw [narrow_getOdt h, narrow_width h]
    simp only [num8, narrow_any h d l n hn k]

theorem narrow_validateList {cfg : Cfg} (h : cfg.maxEnt < 256) (d : Daq) (l : Nat) : wValidateList cfg d l = validateList cfg d l := by
  unfold wValidateList validateList
  rw [narrow_width h]
  simp only [beyond8, num8]
  have : ∀ e : Entity, e.num < 256 := fun e => Nat.mod_lt _ (by decide)
  congr 1
  congr 1
  funext e
  rw [narrow_any h d l _ (this e), Nat.min_eq_left (Nat.le_of_lt (this e))]
  rfl

theorem narrow_sampleEntry {cfg : Cfg} (h : cfg.maxEnt < 256) (s : St) (l o : Nat) : wSampleEntry cfg s l o = sampleEntry cfg s l o := by
  funext acc e
  unfold wSampleEntry sampleEntry
  rw [narrow_entryIdx h]

theorem narrow_sampleOdt {cfg : Cfg} (h : cfg.maxEnt < 256) (env : Env) (s : St) (l p o : Nat) :
    wSampleOdt cfg env s l p o = sampleOdt cfg env s l p o := by
  unfold wSampleOdt sampleOdt
  rw [narrow_getOdt h, narrow_width h, narrow_sampleEntry h]
  rfl

theorem narrow_sampleList {cfg : Cfg} (h : cfg.maxEnt < 256) (env : Env) (s : St) (l : Nat) :
    wSampleList cfg env s l = sampleList cfg env s l := by
  funext st o
  unfold wSampleList sampleList
  rw [narrow_sampleOdt h, narrow_width h]
  rfl

theorem narrow_trigger {cfg : Cfg} (h : cfg.maxEnt < 256) (env : Env) (s : St) (ev : Nat) :
    wTriggerEvent cfg env s ev = triggerEvent cfg env s ev := by
  unfold wTriggerEvent triggerEvent
  simp only [narrow_firstPid h, narrow_sampleList h, narrow_width h, num8]

theorem narrow_handler {cfg : Cfg} (h : cfg.maxEnt < 256) (env : Env) (s : St) (p : Pdu) (c : Cmd) :
    wHandler cfg env s p c = handler cfg env s p c := by
  cases c <;> try rfl
  · simp only [wHandler, handler, wSetDaqPtrRes, setDaqPtrRes, narrow_validate h, narrow_width h, mod8]
  · simp only [wHandler, handler, wWriteDaqRes, writeDaqRes, narrow_write h]
  · simp only [wHandler, handler, wSetDaqListModeRes, setDaqListModeRes, narrow_width h, mod8, Nat.mod_mod]
  · simp only [wHandler, handler, wStartStopDaqListRes, startStopDaqListRes, narrow_width h, mod8, wStartStopDaqListBody,
      startStopDaqListBody, wStartStopDaqListEnd, startStopDaqListEnd, narrow_firstPid h]
  · simp only [wHandler, handler, wGetDaqListInfoRes, getDaqListInfoRes, narrow_width h, mod8]
  · simp only [wHandler, handler, wAllocDaqRes, allocDaqRes, narrow_width h, mod8, narrow_allocDaq h]
  · simp only [wHandler, handler, wAllocOdtRes, allocOdtRes, narrow_width h, mod8, narrow_allocOdt h]
  · simp only [wHandler, handler, wAllocOdtEntryRes, allocOdtEntryRes, narrow_width h, mod8, narrow_allocOdtEntry h]
  · simp only [wHandler, handler, wWriteDaqMultipleRes, writeDaqMultipleRes]
    have : wWriteDaqMultipleBody cfg p = writeDaqMultipleBody cfg p := by
      funext d i
      unfold wWriteDaqMultipleBody writeDaqMultipleBody
      rw [narrow_write h]
    rw [this]

end Xcp
