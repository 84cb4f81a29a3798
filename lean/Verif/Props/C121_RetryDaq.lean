import Verif.Props.C121_Retry
/-
C121, continued: WRITE_DAQ is tried again behind SET_DAQ_PTR.
-/
set_option autoImplicit false
namespace Xcp
open Spec

/-- SET_DAQ_PTR is accepted: measurements are stopped, nothing is programmed, DAQ is not locked and the element exists. -/
structure Spec.Pointable (cfg : Cfg) (s : St) (list odt entry : Nat) : Prop where
  stopped : s.daq.running = false
  idle : s.pgm ≠ .active
  unlocked : isProtected cfg s RES_DAQ = false
  valid : validateOdtEntry cfg s.daq list odt entry = .ok true

/-- The element named is neither the list nor the ODT it is in (so it is after any proper allocation). -/
def Spec.Apart (d : Daq) (list odt entry : Nat) : Prop :=
  let o := ((d.entities list).first % 256 + odt) % 256
  let i := ((d.entities o).first + entry) % 256
  i ≠ list ∧ i ≠ o

/-- What WRITE_DAQ changes. -/
theorem write_shape {cfg : Cfg} {d d1 : Daq} {size : UInt8} {addr : UInt32} (h : writeDaqEntry cfg d size addr = .ok d1) :
    ∃ o i e, getOdt cfg d d.ptr.list d.ptr.odt = .ok o ∧ i = (o.first + d.ptr.entry) % 256 ∧ i < cfg.maxEnt ∧ e = { kind := (d.entities i).kind, w := addr.toNat, len := size.toNat } ∧
      d1 = { d.setEnt i e with ptr := { d.ptr with entry := (d.ptr.entry + 1) % 256 } } := by
  unfold writeDaqEntry getOdtEntryIdx at h
  obtain ⟨i, e1, h⟩ := bind_split h
  obtain ⟨o, e2, e1⟩ := bind_split e1
  obtain ⟨e, e3, h⟩ := bind_split h
  cases e1
  unfold Daq.ent at e3
  split at e3
  · rename_i hi
    cases e3
    cases h
    exact ⟨o, _, _, e2, rfl, hi, rfl, rfl⟩
  · cases e3

theorem getOdt_apart {cfg : Cfg} {d : Daq} {i list odt : Nat} {e : Entity} {P : DaqPtr} (h1 : i ≠ list) (h2 : i ≠ ((d.entities list).first % 256 + odt) % 256) :
    getOdt cfg { d.setEnt i e with ptr := P } list odt = getOdt cfg d list odt := by
  unfold getOdt Daq.ent Daq.setEnt
  simp only [Ne.symm h1, if_false]
  split
  · simp only [ok_bind, Ne.symm h2, if_false]
  · rfl

theorem validate_apart {cfg : Cfg} {d : Daq} {i list odt entry : Nat} {e : Entity} {P : DaqPtr} (h1 : i ≠ list) (h2 : i ≠ ((d.entities list).first % 256 + odt) % 256) :
    validateOdtEntry cfg { d.setEnt i e with ptr := P } list odt entry = validateOdtEntry cfg d list odt entry := by
  unfold validateOdtEntry
  rw [getOdt_apart h1 h2]
  simp only [Daq.ent, Daq.setEnt, Ne.symm h1, if_false]

/-- Writing again where it was written before. -/
theorem write_again {cfg : Cfg} {d d1 : Daq} {size : UInt8} {addr : UInt32} (h : writeDaqEntry cfg d size addr = .ok d1)
    (ha : Spec.Apart d d.ptr.list d.ptr.odt d.ptr.entry) :
    writeDaqEntry cfg { d1 with ptr := d.ptr } size addr = .ok d1 ∧
      (∀ n, validateOdtEntry cfg d1 d.ptr.list d.ptr.odt n = validateOdtEntry cfg d d.ptr.list d.ptr.odt n) ∧ d1.running = d.running := by
  obtain ⟨o, i, e, h1, h2, h3, h4, rfl⟩ := write_shape h
  have ho : o = d.entities (((d.entities d.ptr.list).first % 256 + d.ptr.odt) % 256) := by
    unfold getOdt Daq.ent at h1
    obtain ⟨l, e1, h1⟩ := bind_split h1
    split at e1
    · cases e1
      split at h1
      · cases h1; rfl
      · cases h1
    · cases e1
  have hi : i ≠ d.ptr.list ∧ i ≠ ((d.entities d.ptr.list).first % 256 + d.ptr.odt) % 256 := by
    rw [h2, ho]
    exact ha
  refine ⟨?_, fun n => validate_apart hi.1 hi.2, rfl⟩
  unfold writeDaqEntry getOdtEntryIdx
  show ((getOdt cfg { d.setEnt i e with ptr := d.ptr } d.ptr.list d.ptr.odt >>= fun o => pure ((o.first + d.ptr.entry) % 256)) >>= _) = _
  rw [getOdt_apart hi.1 hi.2, h1]
  simp only [ok_bind, pure_bind, ← h2]
  simp only [Daq.ent, h3, if_true, ok_bind, Daq.setEnt, Entity.setAddr, h4]
  show Except.ok _ = Except.ok _
  congr 2
  funext j
  split <;> rfl

/-- C121: WRITE_DAQ is tried again behind SYNCH and SET_DAQ_PTR. -/
theorem C121_daq {cfg : Cfg} (hm : cfg.maxDlc = false) (hon : cfg.supports .setDaqPtr = true) (hon' : cfg.supports .writeDaq = true) {env : Env} {s : St}
    (hr : Ready s) {p q : Pdu} (hp : code p = some (cmdCode .setDaqPtr)) (hq : code q = some (cmdCode .writeDaq)) {list : Nat} {odt entry : UInt8}
    (h2 : p.word cfg.motorola 2 = .ok list) (h4 : p.byte 4 = .ok odt) (h5 : p.byte 5 = .ok entry)
    (hpt : Spec.Pointable cfg s (list % 256) odt.toNat entry.toNat) (ha : Spec.Apart s.daq (list % 256) odt.toNat entry.toNat) :
    Spec.Retriable cfg env s [p, q] := by
  have b1 : ∀ x : St, (bumpReceived cfg x).daq = x.daq := fun x => by unfold bumpReceived; split <;> rfl
  have b2 : ∀ x : St, (bumpReceived cfg x).pgm = x.pgm := fun x => by unfold bumpReceived; split <;> rfl
  have b3 : ∀ x : St, (bumpReceived cfg x).resProt = x.resProt := fun x => by unfold bumpReceived; split <;> rfl
  have key : ∀ x : St, Ready x → x.daq.running = false → x.pgm = s.pgm → x.resProt = s.resProt →
      validateOdtEntry cfg x.daq (list % 256) odt.toNat entry.toNat = .ok true →
      step cfg env x (.cmd p) = .ok (positive cfg { bumpReceived cfg x with daq := { x.daq with ptr := ⟨list % 256, odt.toNat, entry.toNat⟩ } }) := by
    intro x hx g1 g2 g3 g4
    rw [ready_entry env hx hp]
    simp only [tableEntry, hon, if_true, handler, setDaqPtrRes, assertDaqStopped, assertPgmIdle, assertUnlocked, isProtected, b1, b2, b3, g1, g2, g3,
      Bool.false_eq_true, if_false, hpt.idle, h2, h4, h5, ok_bind, g4]
    have := hpt.unlocked
    unfold isProtected at this
    rw [this]
    rfl
  have key2 : ∀ x : St, Ready x → x.daq.running = false → x.pgm = s.pgm → x.resProt = s.resProt →
      step cfg env x (.cmd q) = (do
        let _ ← q.byte 1
        let size ← q.byte 2
        let _ ← q.byte 3
        let addr ← q.dword cfg.motorola cfg.wrapv 4
        let d ← writeDaqEntry cfg x.daq size addr
        return positive cfg { bumpReceived cfg x with daq := d }) := by
    intro x hx g1 g2 g3
    rw [ready_entry env hx hq]
    have := hpt.unlocked
    unfold isProtected at this
    simp only [tableEntry, hon', if_true, handler, writeDaqRes, assertDaqStopped, assertPgmIdle, assertUnlocked, isProtected, b1, b2, b3, g1, g2, g3,
      Bool.false_eq_true, if_false, hpt.idle, this]
  have rdy : ∀ (x : St) (d : Daq), Ready x → Ready (positive cfg { bumpReceived cfg x with daq := d }) := fun x d hx => by
    unfold bumpReceived
    split <;> exact ⟨hx.conn, hx.idle⟩
  refine retriable_of hm fun s1 h => ?_
  obtain ⟨t, k1, h⟩ := bind_split (x := step cfg env s (.cmd p)) h
  obtain ⟨w, k2, h⟩ := bind_split (x := step cfg env t (.cmd q)) h
  cases h
  rw [key s hr hpt.stopped rfl rfl hpt.valid] at k1
  cases k1
  rw [key2 _ (rdy s { s.daq with ptr := ⟨list % 256, odt.toNat, entry.toNat⟩ } hr) hpt.stopped (b2 s) (b3 s)] at k2
  obtain ⟨x1, e1, k2⟩ := bind_split k2
  obtain ⟨size, e2, k2⟩ := bind_split k2
  obtain ⟨x3, e3, k2⟩ := bind_split k2
  obtain ⟨addr, e4, k2⟩ := bind_split k2
  obtain ⟨d1, e5, k2⟩ := bind_split k2
  cases k2
  obtain ⟨w1, w2, w3⟩ := write_again (d := { s.daq with ptr := ⟨list % 256, odt.toNat, entry.toNat⟩ }) e5 ha
  have v1 : validateOdtEntry cfg d1 (list % 256) odt.toNat entry.toNat = .ok true := (w2 entry.toNat).trans hpt.valid
  have r1 : d1.running = false := w3.trans hpt.stopped
  have hu : Ready { s with daq := d1 } := ⟨hr.conn, hr.idle⟩
  refine ⟨rdy _ _ (rdy s _ hr), { s with daq := d1 }, _, ?_, ?_, fun _ => rfl, rfl⟩
  · refine (alike_received cfg _).trans ((alike_send8 hm _ [0xFF]).trans ((alike_received cfg _).trans ((alike_send8 hm _ [0xFF]).trans ?_)))
    have e : send8 cfg (bumpReceived cfg (send8 cfg (bumpReceived cfg { s with daq := d1 }) [0xFF])) [0xFF] =
        positive cfg { bumpReceived cfg (positive cfg { bumpReceived cfg s with daq := { s.daq with ptr := ⟨list % 256, odt.toNat, entry.toNat⟩ } }) with daq := d1 } := by
      unfold bumpReceived
      split <;> rfl
    rw [e]
    exact alike_refl cfg _
  · show (step cfg env _ (.cmd p) >>= fun x => step cfg env x (.cmd q) >>= fun y => .ok y) = _
    rw [key _ hu r1 rfl rfl v1]
    show (step cfg env (positive cfg { bumpReceived cfg { s with daq := d1 } with daq := { d1 with ptr := ⟨list % 256, odt.toNat, entry.toNat⟩ } }) (.cmd q) >>= fun y => .ok y) = _
    rw [key2 _ (rdy { s with daq := d1 } { d1 with ptr := ⟨list % 256, odt.toNat, entry.toNat⟩ } hu) r1 (b2 _) (b3 _), e1, e2, e3, e4]
    show ((writeDaqEntry cfg { d1 with ptr := ⟨list % 256, odt.toNat, entry.toNat⟩ } size addr >>= _) >>= _) = _
    rw [w1]
    show Except.ok _ = Except.ok _
    congr 1
    unfold bumpReceived
    split <;> rfl

/-- Three one-byte entries.  WRITE_DAQ to the second is tried again, the next one goes to the third, and the packet has the three bytes;
without SET_DAQ_PTR the repetition goes to the third entry. -/
def Ex.threeEntries (again : List (List UInt8)) : List (Env × Op) :=
  (([[0xFF], [0xD6], [0xD5, 0, 1, 0], [0xD4, 0, 0, 0, 1], [0xD3, 0, 0, 0, 0, 3], [0xE2, 0, 0, 0, 0, 0], [0xE1, 0xFF, 1, 0, 0x30, 0, 0, 0],
    [0xE2, 0, 0, 0, 0, 1], [0xE1, 0xFF, 1, 0, 0x31, 0, 0, 0]] ++ again ++
    [[0xE0, 0, 0, 0, 0, 0, 1, 0], [0xDE, 2, 0, 0], [0xDD, 1]]).map Ex.c) ++ [(Ex.env, .trigger 0)]

example : ((Spec.outcome Ex.bare (St.init Ex.bare Ex.mem) (Ex.threeEntries [[0xFC], [0xE2, 0, 0, 0, 0, 1], [0xE1, 0xFF, 1, 0, 0x31, 0, 0, 0],
      [0xE1, 0xFF, 1, 0, 0x32, 0, 0, 0]])).toOption.map fun x => x.1.drop 9) =
    some [(.cto, [0xFE, 0]), (.cto, [0xFF]), (.cto, [0xFF]), (.cto, [0xFF]), (.cto, [0xFF]), (.cto, [0xFF, 0, 0, 0, 0, 0, 0, 0]), (.cto, [0xFF]), (.dto, [0, 0x30, 0x31, 0x32])] := by
  decide +kernel

example : ((Spec.outcome Ex.bare (St.init Ex.bare Ex.mem) (Ex.threeEntries [[0xFC], [0xE1, 0xFF, 1, 0, 0x31, 0, 0, 0]])).toOption.map fun x => x.1.drop 13) =
    some [(.cto, [0xFF]), (.dto, [0, 0x30, 0x31, 0x31])] := by
  decide +kernel

/-- The conditions of `C121_daq` hold there. -/
example : ((run Ex.bare (St.init Ex.bare Ex.mem) ((Ex.threeEntries []).take 5)).toOption.map fun s =>
      (decide (s.pgm ≠ .active), s.daq.running, isProtected Ex.bare s RES_DAQ, (validateOdtEntry Ex.bare s.daq 0 0 1).toOption,
        let o := ((s.daq.entities 0).first % 256 + 0) % 256
        (o, ((s.daq.entities o).first + 1) % 256))) = some (true, false, false, some true, (1, 3)) := by
  decide +kernel

end Xcp
