import Verif.Proofs.Busy
import Verif.Proofs.Table
/-
Which commands can change which parts of the state.
-/
set_option autoImplicit false
namespace Xcp
open Spec

/-- Commands whose handlers store into application memory. -/
def Spec.writesMem : Cmd → Bool
  | .download | .downloadNext | .downloadMax | .shortDownload | .modifyBits => true
  | _ => false

theorem handler_mem {cfg : Cfg} (env : Env) {s : St} (p : Pdu) (c : Cmd) (hc : writesMem c = false) :
    Post (handler cfg env s p c) (fun s' => s'.mem = s.mem) := by
  cases c <;> first | (simp [writesMem] at hc; done) | skip
  all_goals unfold_handlers
  all_goals post
  all_goals simp only [send8_mem, sendRaw_mem, apiDisconnect_mem]

theorem handler_pgm {cfg : Cfg} (env : Env) {s : St} (p : Pdu) (c : Cmd) (hc : c ≠ .programStart)
    (hc' : c ≠ .programReset) : Post (handler cfg env s p c) (fun s' => s'.pgm = s.pgm) := by
  cases c <;> first | (simp at hc; done) | (simp at hc'; done) | skip
  all_goals unfold_handlers
  all_goals post
  all_goals simp only [send8_pgm, sendRaw_pgm, apiDisconnect_pgm]

theorem handler_resProt {cfg : Cfg} (env : Env) {s : St} (p : Pdu) (c : Cmd) (hc : c ≠ .unlock)
    (hc' : c ≠ .disconnect) : Post (handler cfg env s p c) (fun s' => s'.resProt = s.resProt) := by
  cases c <;> first | (simp at hc; done) | (simp at hc'; done) | skip
  all_goals unfold_handlers
  all_goals post
  all_goals simp only [send8_resProt, sendRaw_resProt]

theorem handler_seedReq {cfg : Cfg} (env : Env) {s : St} (p : Pdu) (c : Cmd) (hc : c ≠ .unlock)
    (hc' : c ≠ .disconnect) (hg : c ≠ .getSeed) : Post (handler cfg env s p c) (fun s' => s'.seedReq = s.seedReq) := by
  cases c <;> first | (simp at hc; done) | (simp at hc'; done) | (simp at hg; done) | skip
  all_goals unfold_handlers
  all_goals post
  all_goals simp only [send8_seedReq, sendRaw_seedReq]

/-- Commands whose handlers can change the DAQ state. -/
def Spec.changesDaq : Cmd → Bool
  | .setDaqPtr | .writeDaq | .writeDaqMultiple | .setDaqListMode | .startStopDaqList | .startStopSynch
  | .freeDaq | .allocDaq | .allocOdt | .allocOdtEntry | .disconnect | .unlock => true
  | _ => false

theorem handler_daq {cfg : Cfg} (env : Env) {s : St} (p : Pdu) (c : Cmd) (hc : changesDaq c = false) :
    Post (handler cfg env s p c) (fun s' => s'.daq = s.daq) := by
  cases c <;> first | (simp [changesDaq] at hc; done) | skip
  all_goals unfold_handlers
  all_goals post
  all_goals simp only [send8_daq, sendRaw_daq]

/-- All new frames are command responses or events, not DAQ packets. -/
def Ctos (s s' : St) : Prop := ∃ fs : List Frame, s'.tx = s.tx ++ fs ∧ ∀ f ∈ fs, f.kind = .cto

theorem Ctos.refl (s : St) : Ctos s s := ⟨[], by simp, by simp⟩
theorem Ctos.of_eq {s s' : St} (h : s'.tx = s.tx) : Ctos s s' := ⟨[], by simp [h], by simp⟩
theorem Ctos.trans {a b c : St} (h : Ctos a b) (h' : Ctos b c) : Ctos a c := by
  obtain ⟨fs, h1, h2⟩ := h
  obtain ⟨gs, h3, h4⟩ := h'
  refine ⟨fs ++ gs, by rw [h3, h1, List.append_assoc], ?_⟩
  intro f hf
  rcases List.mem_append.mp hf with hf | hf
  · exact h2 f hf
  · exact h4 f hf
theorem Ctos.send8 {cfg : Cfg} {s0 s : St} {bs : List UInt8} (h : Ctos s0 s) : Ctos s0 (send8 cfg s bs) :=
  h.trans ⟨_, rfl, by simp⟩
theorem Ctos.sendRaw {cfg : Cfg} {s0 s : St} {bs : List UInt8} (h : Ctos s0 s) : Ctos s0 (sendRaw cfg s bs) :=
  h.trans ⟨_, rfl, by simp⟩
theorem Ctos.apiDisconnect {cfg : Cfg} {s0 s : St} (h : Ctos s0 s) : Ctos s0 (apiDisconnect cfg s) :=
  h.trans (Ctos.of_eq (by simp))

theorem handler_ctos {cfg : Cfg} (env : Env) {s : St} (p : Pdu) (c : Cmd) :
    Post (handler cfg env s p c) (Ctos s) := by
  cases c
  all_goals unfold_handlers
  all_goals post
  all_goals repeat' (with_reducible first
    | exact Ctos.refl _
    | apply Ctos.send8
    | apply Ctos.sendRaw
    | apply Ctos.apiDisconnect
    | exact Ctos.of_eq rfl)
  all_goals first
    | exact Ctos.of_eq rfl
    | exact Ctos.apiDisconnect (Ctos.send8 (Ctos.refl _))
    | exact Ctos.send8 (Ctos.refl _)

/-- Effect of the main function. -/
structure MainEff (s s' : St) : Prop where
  connected : s'.connected = s.connected
  daq : s'.daq = s.daq
  pgm : s'.pgm = s.pgm
  resProt : s'.resProt = s.resProt
  seedReq : s'.seedReq = s.seedReq
  mem : s'.mem = s.mem
  ctos : Ctos s s'

theorem main_eff {cfg : Cfg} (env : Env) {s : St} : Post (step cfg env s .main) (MainEff s) := by
  unfold step
  refine Post.mainFunction (Q := MainEff s) ?_ ?_ ?_ ?_
  · intro _
    unfold uploadSingleBlock
    post
    · exact ⟨rfl, rfl, rfl, rfl, rfl, rfl, Ctos.refl _⟩
    · exact ⟨rfl, rfl, rfl, rfl, rfl, rfl, Ctos.sendRaw (Ctos.of_eq rfl)⟩
    · exact ⟨rfl, rfl, rfl, rfl, rfl, rfl, Ctos.sendRaw (Ctos.of_eq rfl)⟩
  · intro _; exact ⟨rfl, rfl, rfl, rfl, rfl, rfl, Ctos.refl _⟩
  · intro s1 h _ _
    have hch : ∀ st c, MainEff s (checksumChunk cfg s1 st c) := fun st c =>
      ⟨h.connected, h.daq, h.pgm, h.resProt, h.seedReq, h.mem, h.ctos.trans (Ctos.of_eq rfl)⟩
    have hfi : ∀ c, MainEff s (checksumFinish cfg s1 c) := fun c =>
      ⟨h.connected, h.daq, h.pgm, h.resProt, h.seedReq, h.mem, h.ctos.trans ⟨_, rfl, by simp⟩⟩
    unfold checksumMain
    split
    · exact h
    · exact hch _ _
    · exact hch _ _
    · exact hfi _
  · intro s1 h; exact h

/-- Effect of events: only the queue changes besides the log. -/
structure TrigEff (s s' : St) : Prop where
  connected : s'.connected = s.connected
  busy : s'.busy = s.busy
  daq : ∃ q, s'.daq = { s.daq with queue := q }
  pgm : s'.pgm = s.pgm
  resProt : s'.resProt = s.resProt
  seedReq : s'.seedReq = s.seedReq
  mta : s'.mta = s.mta
  slaveBlk : s'.slaveBlk = s.slaveBlk
  masterBlk : s'.masterBlk = s.masterBlk
  ck : s'.ck = s.ck
  mem : s'.mem = s.mem
  ctoOut : s'.ctoOut = s.ctoOut

theorem TrigEff.refl (s : St) : TrigEff s s := ⟨rfl, rfl, ⟨_, rfl⟩, rfl, rfl, rfl, rfl, rfl, rfl, rfl, rfl, rfl⟩

theorem transmit_eff {cfg : Cfg} (n : Nat) {s0 s : St} (h : TrigEff s0 s) : Post (transmit cfg n s) (TrigEff s0) := by
  induction n generalizing s with
  | zero => exact Post.ok h
  | succ n ih =>
    unfold transmit
    apply Post.ite
    · intro _; exact Post.ok h
    · intro _
      apply Post.bindAny
      rintro ⟨q, data⟩ _
      apply ih
      obtain ⟨q0, hq0⟩ := h.daq
      exact ⟨h.connected, h.busy, ⟨q, by simp [hq0]⟩, h.pgm, h.resProt, h.seedReq, h.mta, h.slaveBlk, h.masterBlk,
        h.ck, h.mem, h.ctoOut⟩

theorem trigger_eff {cfg : Cfg} (env : Env) (ev : Nat) {s : St} : Post (triggerEvent cfg env s ev) (TrigEff s) := by
  unfold triggerEvent
  post
  · exact TrigEff.refl s
  · exact TrigEff.refl s
  · exact TrigEff.refl s
  · exact transmit_eff _ ⟨rfl, rfl, ⟨_, rfl⟩, rfl, rfl, rfl, rfl, rfl, rfl, rfl, rfl, rfl⟩

/-- Events send nothing while acquisition is stopped. -/
theorem trigger_stopped {cfg : Cfg} {env : Env} {ev : Nat} {s : St} (h : s.daq.running = false) :
    triggerEvent cfg env s ev = .ok s := by
  unfold triggerEvent
  rw [if_pos (by simp [h])]

/-- Effect of event and service request packets. -/
structure SendEff (s s' : St) : Prop where
  same : SameCore s s'
  ctos : Ctos s s'

theorem special_eff {cfg : Cfg} {s : St} {ty code : UInt8} {data : List UInt8} :
    Post (sendSpecial cfg s ty code data) (SendEff s) := by
  unfold sendSpecial
  post
  exact ⟨sendRaw_same .., Ctos.sendRaw (Ctos.refl _)⟩

/-- Which command a packet is executed as, if it is executed. -/
def Spec.executes (cfg : Cfg) (s : St) (p : Pdu) (c : Cmd) : Prop :=
  s.connected = true ∧ s.busy = false ∧ code p = some (cmdCode c) ∧ cfg.supports c = true

/-- Induction principle for the effect of a packet: a property of the new state follows
from the busy and not-executed cases and from the handlers. -/
theorem Post.cmd {cfg : Cfg} {env : Env} {s : St} {p : Pdu} {P : St → Prop}
    (hsame : ∀ s', SameCore s s' → Ctos s s' → P s')
    (hconn : code p = some 0xFF → ∀ s', s'.connected = true → SameCore { s with connected := true } s' → Ctos s s' → P s')
    (hh : ∀ c, executes cfg s p c → Post (handler cfg env (bumpReceived cfg s) p c) P) :
    Post (step cfg env s (.cmd p)) P := by
  apply Post.dispatch
  · intro _ _
    refine hsame _ (busyState_same cfg s) ?_
    unfold busyResponse
    split
    · exact Ctos.send8 (Ctos.of_eq rfl)
    · exact Ctos.send8 (Ctos.refl _)
  · intro b c hb ht hc hbz
    have hcode : code p = some b := by
      unfold Pdu.byte at hb
      unfold code
      cases h : p.buf[0]? with
      | none => rw [h] at hb; cases hb
      | some x => rw [h] at hb; cases hb; rfl
    apply Post.tableEntry
    · intro hsup
      apply hh
      refine ⟨hc, hbz, ?_, hsup⟩
      have hi : 0xC7 ≤ b.toNat := by
        apply Nat.le_of_not_lt
        intro hlt
        rw [table_lo hlt] at ht; cases ht
      obtain ⟨c', hc', hbc⟩ := table_hi hi
      rw [ht] at hc'
      cases hc'
      rw [hcode, hbc]
    · intro _
      exact hsame _ ((bumpReceived_same cfg s).trans (send8_same ..)) (Ctos.send8 (Ctos.of_eq (by simp)))
  · intro hnc hb
    unfold connectRes
    apply Post.ok
    have hcode : code p = some 0xFF := by
      unfold Pdu.byte at hb
      unfold code
      cases h : p.buf[0]? with
      | none => rw [h] at hb; cases hb
      | some x => rw [h] at hb; cases hb; rfl
    refine hconn hcode _ rfl ?_ (Ctos.send8 (Ctos.of_eq (by simp)))
    have := bumpReceived_same cfg s
    exact ⟨rfl, this.busy, this.daq, this.pgm, this.resProt, this.seedReq, this.mta, this.slaveBlk, this.masterBlk,
      this.ck, this.mem⟩
  · intro b _ _ _
    exact hsame _ (bumpReceived_same cfg s) (Ctos.of_eq (by simp))

end Xcp
