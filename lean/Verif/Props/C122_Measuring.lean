import Verif.Props.C94_Transparent
import Verif.Props.C119_Again
/-
C122: measuring leaves everything else as it is.
-/
set_option autoImplicit false
namespace Xcp
open Spec

/-! ### Specification -/

/-- What each operation of a history makes the slave say, and the memory in the end. -/
def Spec.perOp (cfg : Cfg) : St → List (Env × Op) → Except Fault (List (Op × List (Kind × List UInt8)) × Mem)
  | s, [] => .ok ([], s.mem)
  | s, (env, op) :: l =>
    match step cfg env s op with
    | .error e => .error e
    | .ok s1 => match Spec.perOp cfg s1 l with
      | .error e => .error e
      | .ok r => .ok ((op, Spec.said cfg s s1) :: r.1, r.2)

/-- An event of the application that triggers measurements. -/
def Spec.measures : Op → Bool
  | .trigger _ => true
  | _ => false

/-- The full statement: with or without the events, every other operation has the same result, also as to
faults. -/
def Spec.Unnoticed (cfg : Cfg) (s : St) (l : List (Env × Op)) : Prop :=
  Spec.perOp cfg s (l.filter fun o => !Spec.measures o.2) =
    (Spec.perOp cfg s l).map fun x => (x.1.filter fun o => !Spec.measures o.1, x.2)

/-! ### Computations that run side by side -/

/-- The same fault, or results related by `P`. -/
def Both {α β : Type} (P : α → β → Prop) (r : Except Fault α) (r' : Except Fault β) : Prop :=
  (∃ e, r = .error e ∧ r' = .error e) ∨ ∃ a b, r = .ok a ∧ r' = .ok b ∧ P a b

theorem Both.ok {α β : Type} {P : α → β → Prop} {a : α} {b : β} (h : P a b) : Both P (.ok a) (.ok b) := .inr ⟨a, b, rfl, rfl, h⟩
theorem Both.pure {α β : Type} {P : α → β → Prop} {a : α} {b : β} (h : P a b) : Both P (pure a) (pure b) := .inr ⟨a, b, rfl, rfl, h⟩
theorem Both.error {α β : Type} {P : α → β → Prop} (e : Fault) : Both P (.error e) (.error e) := .inl ⟨e, rfl, rfl⟩

theorem Both.ite {α β : Type} {P : α → β → Prop} {c : Prop} {d d' : Decidable c} {a b : Except Fault α} {a' b' : Except Fault β}
    (h1 : c → Both P a a') (h2 : ¬ c → Both P b b') : Both P (@ite _ c d a b) (@ite _ c d' a' b') := by
  by_cases hc : c
  · rw [if_pos hc, if_pos hc]; exact h1 hc
  · rw [if_neg hc, if_neg hc]; exact h2 hc

theorem Both.bindSame {α β γ : Type} {P : β → γ → Prop} (x : Except Fault α) {f : α → Except Fault β} {g : α → Except Fault γ} (h : ∀ a, Both P (f a) (g a)) :
    Both P (x >>= f) (x >>= g) := by
  cases x with
  | error e => exact .inl ⟨e, rfl, rfl⟩
  | ok a => exact h a

theorem Both.bind {α α' β β' : Type} {P : α → α' → Prop} {Q : β → β' → Prop} {r : Except Fault α} {r' : Except Fault α'} {f : α → Except Fault β}
    {g : α' → Except Fault β'} (h : Both P r r') (hf : ∀ a b, P a b → Both Q (f a) (g b)) : Both Q (r >>= f) (r' >>= g) := by
  rcases h with ⟨e, rfl, rfl⟩ | ⟨s, t, rfl, rfl, h⟩
  · exact .inl ⟨e, rfl, rfl⟩
  · exact hf s t h

theorem Both.foldlM {α β γ : Type} {P : α → β → Prop} {f : α → γ → Except Fault α} {g : β → γ → Except Fault β} (hf : ∀ a b c, P a b → Both P (f a c) (g b c)) :
    ∀ (l : List γ) {a : α} {b : β}, P a b → Both P (l.foldlM f a) (l.foldlM g b)
  | [], _, _, h => .ok h
  | c :: l, a, b, h => by
    rw [List.foldlM_cons, List.foldlM_cons]
    exact Both.bind (hf a b c h) fun a' b' h' => Both.foldlM hf l h'

/-! ### States that differ in the queue -/

/-- DAQ states that differ in the queue only. -/
def QDaq (d d' : Daq) : Prop := ∃ q, d' = { d with queue := q }

/-- States that differ in the queue only. -/
def QSt (s t : St) : Prop := ∃ q, t = { s with daq := { s.daq with queue := q } }

theorem QDaq.refl (d : Daq) : QDaq d d := ⟨d.queue, rfl⟩

theorem QDaq.init {d d' : Daq} (h : QDaq d d') : daqInit d' = daqInit d := by
  obtain ⟨q, rfl⟩ := h
  rfl

theorem QDaq.free {d d' : Daq} (h : QDaq d d') : QDaq (daqFree d) (daqFree d') := by
  obtain ⟨q, rfl⟩ := h
  refine ⟨q, ?_⟩
  unfold daqFree
  simp only []
  split <;> rfl

theorem QDaq.set {s t : St} (h : QSt s t) {d d' : Daq} (hd : QDaq d d') : QSt { s with daq := d } { t with daq := d' } := by
  obtain ⟨q, rfl⟩ := h
  obtain ⟨q', rfl⟩ := hd
  exact ⟨q', rfl⟩

theorem QSt.daq {s t : St} (h : QSt s t) : QDaq s.daq t.daq := by
  obtain ⟨q, rfl⟩ := h
  exact ⟨q, rfl⟩

theorem QSt.send8 {s t : St} {cfg : Cfg} (h : QSt s t) (bs : List UInt8) : QSt (send8 cfg s bs) (send8 cfg t bs) := by
  obtain ⟨q, rfl⟩ := h
  exact ⟨q, rfl⟩

theorem QSt.sendRaw {s t : St} {cfg : Cfg} (h : QSt s t) (bs : List UInt8) : QSt (sendRaw cfg s bs) (sendRaw cfg t bs) := by
  obtain ⟨q, rfl⟩ := h
  exact ⟨q, rfl⟩

theorem QSt.result {s t : St} {cfg : Cfg} (h : QSt s t) (c : UInt8) : QSt (sendResult cfg s c) (sendResult cfg t c) := by
  rw [sendResult_eq, sendResult_eq]
  exact h.send8 _

theorem QSt.sendBytes {s t : St} {cfg : Cfg} (h : QSt s t) (bs : List UInt8) : Both QSt (sendBytes cfg s bs) (sendBytes cfg t bs) := by
  unfold Xcp.sendBytes
  exact Both.ite (fun _ => Both.error _) fun _ => Both.ok (h.sendRaw bs)

theorem QSt.received {s t : St} {cfg : Cfg} (h : QSt s t) : QSt (bumpReceived cfg s) (bumpReceived cfg t) := by
  obtain ⟨q, rfl⟩ := h
  unfold bumpReceived
  split <;> exact ⟨q, rfl⟩

theorem QSt.disconnect {s t : St} {cfg : Cfg} (h : QSt s t) : QSt (apiDisconnect cfg s) (apiDisconnect cfg t) := by
  have h1 : QSt (defaultResourceProtection cfg s) (defaultResourceProtection cfg t) := by
    obtain ⟨q, rfl⟩ := h
    unfold defaultResourceProtection
    split <;> exact ⟨q, rfl⟩
  unfold apiDisconnect
  simp only []
  split
  · have h2 := h1.daq.init
    exact QDaq.set h1 (by rw [h2]; exact .refl _)
  · exact h1

theorem QSt.same {s t : St} (h : QSt s t) : t.connected = s.connected ∧ t.busy = s.busy ∧ t.mta = s.mta ∧ t.pgm = s.pgm ∧ t.daq.running = s.daq.running := by
  obtain ⟨q, rfl⟩ := h
  exact ⟨rfl, rfl, rfl, rfl, rfl⟩

theorem qd_allocDaq {cfg : Cfg} {d d' : Daq} (h : QDaq d d') (n : Nat) :
    QDaq (allocDaq cfg d n).1 (allocDaq cfg d' n).1 ∧ (allocDaq cfg d' n).2 = (allocDaq cfg d n).2 := by
  have hi := h.init
  obtain ⟨q, rfl⟩ := h
  unfold allocDaq
  simp only [hi]
  split
  · refine ⟨?_, rfl⟩
    simp only []
    split
    · exact .refl _
    · exact ⟨q, rfl⟩
  split
  · exact ⟨⟨q, rfl⟩, rfl⟩
  · exact ⟨⟨q, rfl⟩, rfl⟩

/-- The same answer, DAQ states that differ in the queue. -/
def QAnswer (r r' : Daq × UInt8) : Prop := QDaq r.1 r'.1 ∧ r'.2 = r.2

theorem QDaq.refused {cfg : Cfg} {d d' : Daq} (h : QDaq d d') : QAnswer (if cfg.resetOnSeqErr then daqInit d else d, ERR_SEQUENCE)
    (if cfg.resetOnSeqErr then daqInit d' else d', ERR_SEQUENCE) := by
  have hi := h.init
  refine ⟨?_, rfl⟩
  rw [hi]
  simp only []
  split
  · exact .refl _
  · exact h

theorem qd_allocOdt {cfg : Cfg} {d d' : Daq} (h : QDaq d d') (l n : Nat) : Both QAnswer (allocOdt cfg d l n) (allocOdt cfg d' l n) := by
  have hr := h.refused (cfg := cfg)
  obtain ⟨q, rfl⟩ := h
  unfold allocOdt
  refine Both.ite (fun _ => Both.ok hr) fun _ => Both.ite (fun _ => Both.bindSame _ fun e => Both.pure ⟨⟨q, rfl⟩, rfl⟩) fun _ => Both.ok ⟨⟨q, rfl⟩, rfl⟩

theorem qd_allocOdtEntry {cfg : Cfg} {d d' : Daq} (h : QDaq d d') (l o n : Nat) : Both QAnswer (allocOdtEntry cfg d l o n) (allocOdtEntry cfg d' l o n) := by
  have hr := h.refused (cfg := cfg)
  obtain ⟨q, rfl⟩ := h
  unfold allocOdtEntry
  refine Both.ite (fun _ => Both.ok hr) fun _ => Both.ite (fun _ => Both.bindSame _ fun e => Both.bindSame _ fun e' => Both.pure ⟨⟨q, rfl⟩, rfl⟩) fun _ => Both.ok ⟨⟨q, rfl⟩, rfl⟩

theorem qd_writeDaqEntry {cfg : Cfg} {d d' : Daq} (h : QDaq d d') (n : UInt8) (a : UInt32) : Both QDaq (writeDaqEntry cfg d n a) (writeDaqEntry cfg d' n a) := by
  obtain ⟨q, rfl⟩ := h
  unfold writeDaqEntry
  exact Both.bindSame (getOdtEntryIdx cfg d d.ptr.list d.ptr.odt d.ptr.entry) fun i => Both.bindSame (d.ent cfg i) fun e => Both.pure ⟨q, rfl⟩

theorem qd_writeDaqMultiple {cfg : Cfg} {p : Pdu} {d d' : Daq} (h : QDaq d d') (i : Nat) : Both QDaq (writeDaqMultipleBody cfg p d i) (writeDaqMultipleBody cfg p d' i) := by
  unfold writeDaqMultipleBody
  exact Both.bindSame _ fun _ => Both.bindSame _ fun _ => Both.bindSame _ fun _ => Both.bindSame _ fun _ => qd_writeDaqEntry h _ _

theorem qd_addEventChannel {cfg : Cfg} {d d' : Daq} (h : QDaq d d') (l e : Nat) : Both QDaq (addEventChannel cfg d l e) (addEventChannel cfg d' l e) := by
  obtain ⟨q, rfl⟩ := h
  unfold addEventChannel
  exact Both.ite (fun _ => Both.ok ⟨q, rfl⟩) fun _ => Both.error _

section
variable {cfg : Cfg}

theorem QSt.pgmIdle {s t : St} (h : QSt s t) {k k' : R} (hk : Both QSt k k') : Both QSt (assertPgmIdle cfg s k) (assertPgmIdle cfg t k') := by
  unfold assertPgmIdle
  simp only [h.same.2.2.2.1]
  exact Both.ite (fun _ => Both.ok (h.result _)) fun _ => hk

theorem QSt.daqStopped {s t : St} (h : QSt s t) {k k' : R} (hk : Both QSt k k') : Both QSt (assertDaqStopped cfg s k) (assertDaqStopped cfg t k') := by
  unfold assertDaqStopped
  simp only [h.same.2.2.2.2]
  exact Both.ite (fun _ => Both.ok (h.result _)) fun _ => hk

theorem QSt.unlocked {s t : St} (h : QSt s t) (r : UInt8) {k k' : R} (hk : Both QSt k k') : Both QSt (assertUnlocked cfg s r k) (assertUnlocked cfg t r k') := by
  have e : isProtected cfg t r = isProtected cfg s r := by obtain ⟨q, rfl⟩ := h; rfl
  unfold assertUnlocked
  rw [e]
  exact Both.ite (fun _ => Both.ok (h.result _)) fun _ => hk

theorem QSt.checkMem (env : Env) {s t : St} (h : QSt s t) (m : Mta) (n : Nat) (a : Access) (b : Bool) {k k' : R} (hk : Both QSt k k') :
    Both QSt (checkMem cfg env s m n a b k) (checkMem cfg env t m n a b k') := by
  unfold Xcp.checkMem
  exact Both.ite (fun _ => Both.ok (h.result _)) fun _ => hk

theorem QSt.copyGuard (n : Nat) {k k' : R} (hk : Both QSt k k') : Both QSt (copyGuard cfg n k) (copyGuard cfg n k') := by
  unfold Xcp.copyGuard
  exact Both.ite (fun _ => Both.error _) fun _ => hk

theorem QSt.uploadFrame (env : Env) {s t : St} (h : QSt s t) (n : Nat) : Both QSt (uploadFrame cfg env s n) (uploadFrame cfg env t n) := by
  obtain ⟨q, rfl⟩ := h
  unfold Xcp.uploadFrame
  refine QSt.copyGuard n <| Both.bind (QSt.sendBytes ⟨q, rfl⟩ _) fun s1 t1 h1 => ?_
  obtain ⟨q1, rfl⟩ := h1
  exact Both.ite (fun _ => Both.pure ⟨q1, rfl⟩) fun _ => Both.pure ⟨q1, rfl⟩

theorem QSt.uploadSingleBlock (env : Env) {s t : St} (h : QSt s t) : Both QSt (uploadSingleBlock cfg env s) (uploadSingleBlock cfg env t) := by
  obtain ⟨q, rfl⟩ := h
  unfold Xcp.uploadSingleBlock
  exact Both.ite (fun _ => Both.ok ⟨q, rfl⟩) fun _ => Both.ite (fun _ => QSt.uploadFrame env ⟨q, rfl⟩ _) fun _ => QSt.uploadFrame env ⟨q, rfl⟩ _

theorem QSt.upload (env : Env) {s t : St} (h : QSt s t) (n : Nat) : Both QSt (upload cfg env s n) (upload cfg env t n) := by
  obtain ⟨q, rfl⟩ := h
  unfold Xcp.upload
  exact Both.ite (fun _ => QSt.uploadSingleBlock env ⟨q, rfl⟩) fun _ => QSt.copyGuard _ <| QSt.sendBytes ⟨q, rfl⟩ _

theorem QSt.copyIn (env : Env) {s t : St} (h : QSt s t) (m : Mta) (d : List UInt8) : Both QSt (copyIn cfg env s m d) (copyIn cfg env t m d) := by
  obtain ⟨q, rfl⟩ := h
  unfold Xcp.copyIn
  exact Both.ite (fun _ => Both.error _) fun _ => Both.ok ⟨q, rfl⟩

theorem QSt.downloadCopy (env : Env) {s t : St} (h : QSt s t) (p : Pdu) (a n : Nat) : Both QSt (downloadCopy cfg env s p a n) (downloadCopy cfg env t p a n) := by
  have hm := h.same.2.2.1
  unfold Xcp.downloadCopy
  rw [hm]
  refine Both.bindSame _ fun d => Both.bind (QSt.copyIn env h _ d) fun s1 t1 h1 => ?_
  obtain ⟨q, rfl⟩ := h1
  exact Both.pure ⟨q, rfl⟩

theorem QSt.setCk {s t : St} (h : QSt s t) (k : CkJob) : QSt { s with ck := k } { t with ck := k } := by
  obtain ⟨q, rfl⟩ := h
  exact ⟨q, rfl⟩

theorem QSt.checksumMain {s t : St} (h : QSt s t) : QSt (checksumMain cfg s) (checksumMain cfg t) := by
  have h0 := h
  obtain ⟨q, rfl⟩ := h
  unfold Xcp.checksumMain
  simp only []
  cases s.ck.state with
  | idle => exact h0
  | initial =>
    simp only [checksumChunk]
    exact QSt.setCk h0 _
  | remaining =>
    simp only [checksumChunk]
    exact QSt.setCk h0 _
  | final =>
    simp only [checksumFinish, checksumResponse]
    exact QSt.setCk (QSt.send8 ⟨q, rfl⟩ _) _

theorem QSt.listEnd {s t : St} (h : QSt s t) (n : Nat) : Both QSt (startStopDaqListEnd cfg s n) (startStopDaqListEnd cfg t n) := by
  obtain ⟨q, rfl⟩ := h
  unfold startStopDaqListEnd
  exact Both.bindSame (getFirstPid cfg s.daq n) fun a => Both.pure ⟨q, rfl⟩

theorem QSt.listBody {s t : St} (h : QSt s t) (m : UInt8) (n : Nat) : Both QSt (startStopDaqListBody cfg s m n) (startStopDaqListBody cfg t m n) := by
  have h0 := h
  obtain ⟨q, rfl⟩ := h
  unfold startStopDaqListBody
  exact Both.ite (fun _ => QSt.listEnd h0 n) fun _ => Both.ite (fun _ => QSt.listEnd h0 n) fun _ =>
    Both.ite (fun _ => QSt.listEnd ⟨q, rfl⟩ n) fun _ => Both.ok (h0.send8 _)

theorem QSt.infoBody {s t : St} (h : QSt s t) (n : Nat) : Both QSt (getDaqListInfoBody cfg s n) (getDaqListInfoBody cfg t n) := by
  obtain ⟨q, rfl⟩ := h
  unfold getDaqListInfoBody
  exact Both.bindSame (s.daq.ent cfg n) fun a => Both.pure ⟨q, rfl⟩

theorem QSt.handler (env : Env) {s t : St} (h : QSt s t) (p : Pdu) (c : Cmd) : Both QSt (handler cfg env s p c) (handler cfg env t p c) := by
  have h0 := h
  obtain ⟨q, rfl⟩ := h
  cases c
  case getId =>
    show Both QSt (getIdRes _ _ _ _) (getIdRes _ _ _ _)
    unfold getIdRes
    refine Both.bindSame _ fun ty => ?_
    cases getIdLookup cfg env ty with
    | none => exact Both.pure ⟨q, rfl⟩
    | some a => exact Both.pure ⟨q, rfl⟩
  case getSeed =>
    show Both QSt (getSeedRes _ _ _ _) (getSeedRes _ _ _ _)
    unfold getSeedRes isProtected
    refine Both.bindSame _ fun m => Both.bindSame _ fun r => QSt.pgmIdle h0 <| Both.ite (fun _ => Both.ok (h0.send8 _)) fun _ =>
      Both.ite (fun _ => QSt.copyGuard _ ?_) fun _ => ?_
    all_goals exact QSt.sendBytes ⟨q, rfl⟩ _
  case unlock =>
    show Both QSt (unlockRes _ _ _ _) (unlockRes _ _ _ _)
    unfold unlockRes
    refine Both.bindSame _ fun m => QSt.pgmIdle h0 <| Both.ite (fun _ => Both.ok (h0.send8 _)) fun _ =>
      Both.ite (fun _ => Both.ok ⟨q, rfl⟩) fun _ => Both.ok ?_
    obtain ⟨q', e'⟩ := (h0.send8 (cfg := cfg) [0xFE, ERR_ACCESS_LOCKED]).disconnect (cfg := cfg)
    exact ⟨q', congrArg (fun t : St => { t with seedReq := 0 }) e'⟩
  case transportLayerCmd =>
    show Both QSt (transportLayerCmdRes _ _ _) (transportLayerCmdRes _ _ _)
    unfold transportLayerCmdRes
    refine QSt.pgmIdle h0 <| Both.bindSame _ fun m => Both.ite (fun _ => ?_) fun _ => Both.ite (fun _ => ?_) fun _ =>
      Both.ite (fun _ => Both.pure h0) fun _ => Both.pure (h0.send8 _)
    · unfold getSlaveIdRes
      exact Both.bindSame _ fun _ => Both.bindSame _ fun _ => Both.pure (h0.send8 _)
    · unfold getDaqIdRes
      refine Both.bindSame _ fun i => ?_
      cases cfg.canDaqIds[i.toNat]? with
      | none => exact Both.pure (h0.send8 _)
      | some v => exact Both.pure (h0.send8 _)
  case download =>
    show Both QSt (downloadRes _ _ _ _) (downloadRes _ _ _ _)
    unfold downloadRes
    refine Both.bindSame _ fun n => QSt.pgmIdle h0 <| QSt.checkMem env h0 _ _ _ _ <| Both.ite (fun _ => ?_) fun _ => ?_
    · refine Both.ite (fun _ => Both.ok ⟨q, rfl⟩) fun _ => Both.ite (fun _ => QSt.downloadCopy env ⟨q, rfl⟩ _ _ _) fun _ => ?_
      exact Both.bind (QSt.downloadCopy env ⟨q, rfl⟩ _ _ _) fun s1 t1 h1 => Both.pure (h1.send8 _)
    · exact Both.ite (fun _ => Both.ok (h0.send8 _)) fun _ =>
        Both.bind (QSt.downloadCopy env h0 _ _ _) fun s1 t1 h1 => Both.pure (h1.send8 _)
  case downloadNext =>
    show Both QSt (downloadNextRes _ _ _ _) (downloadNextRes _ _ _ _)
    unfold downloadNextRes
    refine Both.bindSame _ fun n => QSt.pgmIdle h0 <| Both.ite (fun _ => Both.ok (h0.send8 _)) fun hn =>
      Both.bind (QSt.downloadCopy env h0 _ _ _) fun s1 t1 h1 => Both.ite (fun _ => ?_) fun _ => ?_
    all_goals obtain ⟨q1, rfl⟩ := h1
    all_goals exact Both.pure ⟨q1, rfl⟩
  case downloadMax =>
    show Both QSt (downloadMaxRes _ _ _ _) (downloadMaxRes _ _ _ _)
    unfold downloadMaxRes
    exact QSt.pgmIdle h0 <| Both.bind (QSt.downloadCopy env h0 _ _ _) fun s1 t1 h1 => Both.pure (h1.send8 _)
  case shortDownload =>
    show Both QSt (shortDownloadRes _ _ _ _) (shortDownloadRes _ _ _ _)
    unfold shortDownloadRes
    refine Both.bindSame _ fun n => Both.bindSame _ fun e => Both.bindSame _ fun a => QSt.pgmIdle h0 <| QSt.checkMem env h0 _ _ _ _ <|
      Both.ite (fun _ => Both.ok (h0.send8 _)) fun _ => Both.bindSame _ fun d => Both.bind (QSt.copyIn env h0 _ _) fun s1 t1 h1 => ?_
    obtain ⟨q1, rfl⟩ := h1
    exact Both.pure ⟨q1, rfl⟩
  case buildChecksum =>
    show Both QSt (buildChecksumRes _ _ _ _) (buildChecksumRes _ _ _ _)
    unfold buildChecksumRes startChecksum
    exact Both.bindSame _ fun n => QSt.pgmIdle h0 <| QSt.checkMem env h0 _ _ _ _ <|
      Both.ite (fun _ => Both.ok (h0.send8 _)) fun _ => Both.ite (fun _ => Both.ite (fun _ => Both.ok h0) fun _ => Both.ok ⟨q, rfl⟩) fun _ =>
        Both.ok (h0.send8 _)
  case setDaqPtr =>
    show Both QSt (setDaqPtrRes _ _ _) (setDaqPtrRes _ _ _)
    unfold setDaqPtrRes
    exact QSt.daqStopped h0 <| QSt.pgmIdle h0 <| QSt.unlocked h0 _ <| Both.bindSame _ fun l => Both.bindSame _ fun o => Both.bindSame _ fun e =>
      Both.bindSame (validateOdtEntry cfg s.daq (l % 256) o.toNat e.toNat) fun b => Both.ite (fun _ => Both.pure ⟨q, rfl⟩) fun _ => Both.pure (h0.send8 _)
  case writeDaq =>
    show Both QSt (writeDaqRes _ _ _) (writeDaqRes _ _ _)
    unfold writeDaqRes
    exact Both.bindSame _ fun _ => Both.bindSame _ fun _ => Both.bindSame _ fun _ => Both.bindSame _ fun _ =>
      QSt.daqStopped h0 <| QSt.pgmIdle h0 <| QSt.unlocked h0 _ <| Both.bind (qd_writeDaqEntry ⟨q, rfl⟩ _ _) fun d d' hd => Both.pure ((QDaq.set h0 hd).send8 _)
  case writeDaqMultiple =>
    show Both QSt (writeDaqMultipleRes _ _ _) (writeDaqMultipleRes _ _ _)
    unfold writeDaqMultipleRes
    exact Both.bindSame _ fun _ => Both.ite (fun _ => Both.pure (h0.result _)) fun _ =>
      QSt.daqStopped h0 <| QSt.pgmIdle h0 <| QSt.unlocked h0 _ <| Both.bind (Both.foldlM (fun a b c h => qd_writeDaqMultiple h c) _ ⟨q, rfl⟩) fun d d' hd =>
        Both.pure ((QDaq.set h0 hd).send8 _)
  case setDaqListMode =>
    show Both QSt (setDaqListModeRes _ _ _) (setDaqListModeRes _ _ _)
    unfold setDaqListModeRes
    refine Both.bindSame _ fun _ => Both.bindSame _ fun _ => Both.bindSame _ fun _ => Both.bindSame _ fun _ => Both.bindSame _ fun _ =>
      QSt.daqStopped h0 <| QSt.pgmIdle h0 <| QSt.unlocked h0 _ <| Both.ite (fun _ => Both.ok (h0.send8 _)) fun _ => Both.ite (fun _ => Both.ok (h0.send8 _)) fun _ =>
        Both.ite (fun _ => Both.ok (h0.send8 _)) fun _ => Both.bind (qd_addEventChannel ⟨q, rfl⟩ _ _) fun d d' hd => ?_
    obtain ⟨q1, rfl⟩ := hd
    exact Both.pure ⟨q1, rfl⟩
  case startStopDaqList =>
    show Both QSt (startStopDaqListRes _ _ _) (startStopDaqListRes _ _ _)
    unfold startStopDaqListRes
    exact Both.bindSame _ fun m => Both.bindSame _ fun n => QSt.pgmIdle h0 <| QSt.unlocked h0 _ <|
      Both.ite (fun _ => QSt.listBody (h0.send8 _) _ _) fun _ => QSt.listBody h0 _ _
  case getDaqListInfo =>
    show Both QSt (getDaqListInfoRes _ _ _) (getDaqListInfoRes _ _ _)
    unfold getDaqListInfoRes
    exact Both.bindSame _ fun n => QSt.pgmIdle h0 <| QSt.unlocked h0 _ <|
      Both.ite (fun _ => QSt.infoBody (h0.send8 _) _) fun _ => QSt.infoBody h0 _
  case getDaqEventInfo =>
    show Both QSt (getDaqEventInfoRes _ _ _) (getDaqEventInfoRes _ _ _)
    unfold getDaqEventInfoRes
    refine Both.bindSame _ fun n => QSt.unlocked h0 _ <| Both.ite (fun _ => Both.ok (h0.result _)) fun _ => ?_
    generalize cfg.events n = e
    dsimp only
    cases e.name with
    | none => exact Both.ok (h0.send8 _)
    | some a => exact Both.ite (fun _ => Both.ok (h0.send8 _)) fun _ => Both.ok ⟨q, rfl⟩
  case freeDaq =>
    show Both QSt (freeDaqRes _ _) (freeDaqRes _ _)
    unfold freeDaqRes
    exact QSt.unlocked h0 _ <| QSt.pgmIdle h0 <| Both.ok ((QDaq.set h0 (QDaq.free ⟨q, rfl⟩)).result _)
  case allocDaq =>
    show Both QSt (allocDaqRes _ _ _) (allocDaqRes _ _ _)
    unfold allocDaqRes
    refine QSt.pgmIdle h0 <| QSt.unlocked h0 _ <| Both.bindSame _ fun n => ?_
    obtain ⟨h1, h2⟩ := qd_allocDaq (cfg := cfg) (QSt.daq h0) (n % 256)
    dsimp only at h2 ⊢
    rw [h2]
    exact Both.pure ((QDaq.set h0 h1).result _)
  case allocOdt =>
    show Both QSt (allocOdtRes _ _ _) (allocOdtRes _ _ _)
    unfold allocOdtRes
    refine QSt.pgmIdle h0 <| QSt.unlocked h0 _ <| Both.bindSame _ fun l => Both.bindSame _ fun n => Both.bind (qd_allocOdt (QSt.daq h0) _ _) fun r r' hr => ?_
    obtain ⟨h1, h2⟩ := hr
    rw [h2]
    exact Both.pure ((QDaq.set h0 h1).result _)
  case allocOdtEntry =>
    show Both QSt (allocOdtEntryRes _ _ _) (allocOdtEntryRes _ _ _)
    unfold allocOdtEntryRes
    refine QSt.pgmIdle h0 <| QSt.unlocked h0 _ <| Both.bindSame _ fun l => Both.bindSame _ fun o => Both.bindSame _ fun n =>
      Both.bind (qd_allocOdtEntry (QSt.daq h0) _ _ _) fun r r' hr => ?_
    obtain ⟨h1, h2⟩ := hr
    rw [h2]
    exact Both.pure ((QDaq.set h0 h1).result _)
  all_goals
    unfold_handlers
    try simp only [assertPgmIdle, assertPgmActive, assertDaqStopped, assertUnlocked, isProtected, Xcp.checkMem, ne_eq, sendResult_eq]
    repeat' (with_reducible first
      | intro _
      | apply Both.ite
      | apply QSt.upload
      | apply Both.ok
      | apply Both.pure
      | apply Both.error
      | apply Both.bindSame
      | apply QSt.disconnect
      | apply QSt.send8)
    all_goals exact ⟨q, rfl⟩

theorem QSt.step (env : Env) {s t : St} (h : QSt s t) (op : Op) (ho : Spec.measures op = false) : Both QSt (step cfg env s op) (step cfg env t op) := by
  cases op with
  | cmd p =>
    show Both QSt (dispatch _ _ _ _) (dispatch _ _ _ _)
    unfold dispatch
    simp only [h.same.1, h.same.2.1]
    refine Both.bindSame _ fun c => Both.ite (fun _ => Both.ite (fun _ => Both.pure ?_) fun _ => ?_) fun _ =>
      Both.ite (fun _ => QSt.handler env h.received p .connect) fun _ => Both.pure h.received
    · unfold busyResponse
      refine QSt.send8 ?_ _
      obtain ⟨q, rfl⟩ := h
      split <;> exact ⟨q, rfl⟩
    · cases cmdTable[0xFF - c.toNat]? with
      | none => exact Both.error _
      | some c =>
        unfold tableEntry
        exact Both.ite (fun _ => QSt.handler env h.received p c) fun _ => Both.ok (h.received.send8 _)
  | main =>
    show Both QSt (mainFunction _ _ _) (mainFunction _ _ _)
    unfold mainFunction mainUpload mainChecksum
    refine Both.bind (Both.ite (fun _ => QSt.uploadSingleBlock env h) fun _ => Both.ok h) fun s1 t1 h1 => ?_
    cases cfg.on .buildChecksum && cfg.chunked
    · exact Both.pure h1
    · exact Both.pure h1.checksumMain
  | trigger ev => cases ho
  | eventPkt c d => exact h.sendBytes _
  | servPkt c d => exact h.sendBytes _
  | appWrite a b =>
    obtain ⟨q, rfl⟩ := h
    exact Both.ok ⟨q, rfl⟩
  | apiDisconnect => exact Both.ok h.disconnect

/-! ### What an event changes -/

/-- Only the queue, the counter and the statistics have changed, and only DAQ packets were sent. -/
def OnlyMeasured (s s' : St) : Prop :=
  ∃ q n st a, s' = { s with daq := { s.daq with queue := q }, counter := n, stats := st, tx := s.tx ++ a } ∧ ∀ f ∈ a, f.kind = .dto

theorem OnlyMeasured.refl (s : St) : OnlyMeasured s s := ⟨s.daq.queue, s.counter, s.stats, [], by simp, by simp⟩

theorem OnlyMeasured.trans {s t u : St} (h1 : OnlyMeasured s t) (h2 : OnlyMeasured t u) : OnlyMeasured s u := by
  obtain ⟨q, n, st, a, rfl, ha⟩ := h1
  obtain ⟨q', n', st', a', rfl, ha'⟩ := h2
  refine ⟨q', n', st', a ++ a', by simp, fun f hf => ?_⟩
  rcases List.mem_append.1 hf with hf | hf
  · exact ha f hf
  · exact ha' f hf

theorem OnlyMeasured.queue (s : St) (q : Queue) : OnlyMeasured s { s with daq := { s.daq with queue := q } } := ⟨q, s.counter, s.stats, [], by simp, by simp⟩

theorem OnlyMeasured.emit (s : St) (d : List UInt8) : OnlyMeasured s (emit cfg s .dto d) := by
  refine ⟨s.daq.queue, _, _, [_], rfl, ?_⟩
  intro f hf
  rw [List.mem_singleton] at hf
  rw [hf]

theorem transmit_measured (n : Nat) : ∀ {s s' : St}, transmit cfg n s = .ok s' → OnlyMeasured s s' := by
  induction n with
  | zero => intro s s' h; cases h; exact .refl s
  | succ n ih =>
    intro s s' h
    unfold transmit at h
    split at h
    · cases h; exact .refl s
    · obtain ⟨a, _, h⟩ := bind_split h
      exact (OnlyMeasured.queue s a.1).trans ((OnlyMeasured.emit _ _).trans (ih h))

theorem trigger_measured {env : Env} {s s' : St} {ev : UInt8} (h : step cfg env s (.trigger ev) = .ok s') : OnlyMeasured s s' := by
  simp only [step] at h
  split at h
  · unfold triggerEvent at h
    split at h
    · cases h; exact .refl s
    split at h
    · cases h; exact .refl s
    obtain ⟨a, _, h⟩ := bind_split h
    obtain ⟨found, pid⟩ := a
    simp only [] at h
    split at h
    · cases h; exact .refl s
    obtain ⟨l, _, h⟩ := bind_split h
    obtain ⟨q, _, h⟩ := bind_split h
    exact (OnlyMeasured.queue s q.2).trans (transmit_measured _ h)
  · cases h; exact .refl s

/-- The same state but for the queue and for what never matters (C117). -/
def Beside (cfg : Cfg) (s t : St) : Prop := ∃ u, QSt s u ∧ Twin cfg u.tx t.tx u t

theorem Beside.measured {s s' t : St} (h : Beside cfg s t) (hs : OnlyMeasured s s') : Beside cfg s' t := by
  obtain ⟨u, ⟨q, rfl⟩, w, rfl, hw⟩ := h
  obtain ⟨q', n, st, a, rfl, _⟩ := hs
  refine ⟨_, ⟨q, rfl⟩, w, rfl, hw.buf, ⟨[], [], ?_, ?_, rfl⟩, hw.blk, hw.mblk, hw.ck, hw.pgm⟩
  · simp
  · simp

theorem Beside.step {s s' t : St} (h : Beside cfg s t) {env : Env} {op : Op} (ho : Spec.measures op = false) (hs : step cfg env s op = .ok s') :
    ∃ t', Xcp.step cfg env t op = .ok t' ∧ Beside cfg s' t' ∧ Spec.said cfg t t' = Spec.said cfg s s' := by
  obtain ⟨u, h1, h2⟩ := h
  have htx : u.tx = s.tx := by obtain ⟨q, rfl⟩ := h1; rfl
  rcases h1.step (cfg := cfg) env op ho with ⟨e, e1, _⟩ | ⟨a, u', e1, e2, h3⟩
  · rw [hs] at e1; cases e1
  rw [hs] at e1
  cases e1
  have htx' : u'.tx = s'.tx := by obtain ⟨q, rfl⟩ := h3; rfl
  rcases Twins.step env h2 op with ⟨e, e3, _⟩ | ⟨a, t', e3, e4, h4⟩
  · rw [e2] at e3; cases e3
  rw [e2] at e3
  cases e3
  refine ⟨t', e4, ⟨u', h3, h4.rebase⟩, ?_⟩
  have h5 := h4.said_eq
  unfold Spec.said
  rw [← htx, ← htx', h5]

end

/-! ### The property -/

theorem beside_perOp {cfg : Cfg} : ∀ {l : List (Env × Op)} {s t : St} {x : List (Op × List (Kind × List UInt8)) × Mem}, Beside cfg s t → Spec.perOp cfg s l = .ok x →
    Spec.perOp cfg t (l.filter fun o => !Spec.measures o.2) = .ok (x.1.filter fun o => !Spec.measures o.1, x.2)
  | [], s, t, x, h, hx => by
    cases hx
    obtain ⟨u, ⟨q, rfl⟩, w, rfl, _⟩ := h
    rfl
  | (env, op) :: l, s, t, x, h, hx => by
    unfold Spec.perOp at hx
    split at hx
    · cases hx
    rename_i s1 h1
    split at hx
    · cases hx
    rename_i r hr
    cases hx
    by_cases ho : Spec.measures op = true
    · have hb : Beside cfg s1 t := by
        cases op with
        | trigger ev => exact h.measured (trigger_measured h1)
        | _ => cases ho
      have := beside_perOp hb hr
      rw [List.filter_cons_of_neg (by simp [ho]), List.filter_cons_of_neg (by simp [ho])]
      exact this
    · have ho' : Spec.measures op = false := by simpa using ho
      obtain ⟨t1, e1, e2, e3⟩ := h.step ho' h1
      have := beside_perOp e2 hr
      rw [List.filter_cons_of_pos (by simp [ho']), List.filter_cons_of_pos (by simp [ho'])]
      unfold Spec.perOp
      simp only [e1, this, e3]

/-- C122: take all events that trigger measurements out of a history: every other operation is answered as
before, byte for byte, and the memory ends up the same. -/
theorem C122_measuring_partial {cfg : Cfg} {s : St} {l : List (Env × Op)} {x : List (Op × List (Kind × List UInt8)) × Mem} (h : Spec.perOp cfg s l = .ok x) :
    Spec.perOp cfg s (l.filter fun o => !Spec.measures o.2) = .ok (x.1.filter fun o => !Spec.measures o.1, x.2) :=
  beside_perOp ⟨s, ⟨s.daq.queue, rfl⟩, (alike_refl cfg s).twin⟩ h

/-! ### In terms of packets -/

theorem quiet_ctos {cfg : Cfg} {env : Env} {s s' : St} {op : Op} (ho : Spec.measures op = false) (h : step cfg env s op = .ok s') : Ctos s s' := by
  cases op with
  | cmd p => exact cmd_ctos env p s' h
  | main => exact (main_eff env s' h).ctos
  | trigger ev => cases ho
  | eventPkt c d => exact (special_eff s' h).2
  | servPkt c d => exact (special_eff s' h).2
  | appWrite a b => cases h; exact .of_eq rfl
  | apiDisconnect => cases h; exact (Ctos.refl s).apiDisconnect

theorem said_of_append {cfg : Cfg} {s t : St} {a : List Frame} (h : t.tx = s.tx ++ a) : Spec.said cfg s t = Spec.payloadsOf cfg a := by
  unfold Spec.said
  rw [h, List.drop_left]

/-- One step: triggers send DAQ packets only, everything else sends none. -/
theorem said_kinds {cfg : Cfg} {env : Env} {s s' : St} {op : Op} (h : step cfg env s op = .ok s') :
    (∃ a, s'.tx = s.tx ++ a) ∧ ∀ x ∈ Spec.said cfg s s', x.1 = if Spec.measures op then .dto else .cto := by
  by_cases ho : Spec.measures op = true
  · rw [if_pos ho]
    cases op with
    | trigger ev =>
      obtain ⟨q, n, st, a, rfl, ha⟩ := trigger_measured h
      refine ⟨⟨a, rfl⟩, fun x hx => ?_⟩
      rw [said_of_append (a := a) rfl] at hx
      obtain ⟨f, hf, rfl⟩ := List.mem_map.1 hx
      exact ha f hf
    | _ => cases ho
  · rw [if_neg ho]
    obtain ⟨a, e, ha⟩ := quiet_ctos (by simpa using ho) h
    refine ⟨⟨a, e⟩, fun x hx => ?_⟩
    rw [said_of_append e] at hx
    obtain ⟨f, hf, rfl⟩ := List.mem_map.1 hx
    exact ha f hf

/-- What an operation says, in an outcome: `perOp` put together. -/
theorem outcome_perOp {cfg : Cfg} : ∀ (l : List (Env × Op)) (s : St),
    Spec.outcome cfg s l = (Spec.perOp cfg s l).map fun x => (x.1.flatMap Prod.snd, x.2)
  | [], s => by
    show Except.ok _ = Except.ok _
    simp [Spec.payloadsOf]
  | (env, op) :: l, s => by
    unfold Spec.perOp
    have h0 : Spec.outcome cfg s ((env, op) :: l) = (step cfg env s op >>= fun s1 => run cfg s1 l).map fun s' => (Spec.payloadsOf cfg (s'.tx.drop s.tx.length), s'.mem) := rfl
    rw [h0]
    cases h1 : step cfg env s op with
    | error e => rfl
    | ok s1 =>
      have ih := outcome_perOp (cfg := cfg) l s1
      obtain ⟨⟨a, ha⟩, _⟩ := said_kinds h1
      simp only [ok_bind]
      unfold Spec.outcome at ih
      cases h2 : run cfg s1 l with
      | error e =>
        rw [h2] at ih
        cases h3 : Spec.perOp cfg s1 l with
        | error e' => rw [h3] at ih; cases ih; rfl
        | ok r => rw [h3] at ih; cases ih
      | ok s' =>
        rw [h2] at ih
        cases h3 : Spec.perOp cfg s1 l with
        | error e' => rw [h3] at ih; cases ih
        | ok r =>
          rw [h3] at ih
          have ih' := Except.ok.inj ih
          show Except.ok _ = Except.ok _
          congr 1
          obtain ⟨b, hb⟩ := run_adds h2
          rw [← Prod.mk.inj ih' |>.2]
          show (_, _) = (Spec.said cfg s s1 ++ r.1.flatMap Prod.snd, _)
          congr 1
          rw [← (Prod.mk.inj ih').1, said_of_append ha, hb, ha, List.append_assoc, List.drop_left, ← List.append_assoc, List.drop_left]
          exact List.map_append ..

theorem perOp_kinds {cfg : Cfg} : ∀ {l : List (Env × Op)} {s : St} {x : List (Op × List (Kind × List UInt8)) × Mem}, Spec.perOp cfg s l = .ok x →
    ∀ o ∈ x.1, ∀ y ∈ o.2, y.1 = if Spec.measures o.1 then .dto else .cto
  | [], s, x, hx => by
    cases hx
    intro o ho
    cases ho
  | (env, op) :: l, s, x, hx => by
    unfold Spec.perOp at hx
    split at hx
    · cases hx
    rename_i s1 h1
    split at hx
    · cases hx
    rename_i r hr
    cases hx
    intro o ho
    rcases List.mem_cons.1 ho with rfl | ho
    · exact (said_kinds h1).2
    · exact perOp_kinds hr o ho

/-- C122, in terms of what a master receives: without the events it receives the same packets but for the
DAQ packets, and the memory is the same. -/
theorem C122_packets_partial {cfg : Cfg} {s : St} {l : List (Env × Op)} {ps : List (Kind × List UInt8)} {m : Mem} (h : Spec.outcome cfg s l = .ok (ps, m)) :
    Spec.outcome cfg s (l.filter fun o => !Spec.measures o.2) = .ok (ps.filter fun x => decide (x.1 ≠ .dto), m) := by
  rw [outcome_perOp] at h ⊢
  cases hx : Spec.perOp cfg s l with
  | error e => rw [hx] at h; cases h
  | ok x =>
    rw [hx] at h
    cases h
    rw [C122_measuring_partial hx]
    show Except.ok (List.flatMap Prod.snd (x.1.filter fun o => !Spec.measures o.1), x.2) = Except.ok _
    congr 2
    have hk := perOp_kinds hx
    generalize x.1 = L at hk
    induction L with
    | nil => rfl
    | cons o L ih =>
      have ih := ih fun o ho => hk o (by simp [ho])
      have ho := hk o (by simp)
      rw [List.flatMap_cons, List.filter_append]
      by_cases hm : Spec.measures o.1 = true
      · rw [List.filter_cons_of_neg (by simp [hm]), ih]
        rw [if_pos hm] at ho
        have : (o.2.filter fun x => decide (x.1 ≠ .dto)) = [] := by
          rw [List.filter_eq_nil_iff]
          intro y hy
          simp [ho y hy]
        rw [this]
        rfl
      · rw [List.filter_cons_of_pos (by simp [hm]), List.flatMap_cons, ih]
        rw [if_neg hm] at ho
        congr 1
        rw [eq_comm, List.filter_eq_self]
        intro y hy
        simp [ho y hy]

/-- The full statement is the partial one unless an event stops the slave. -/
theorem C122_unless_fault {cfg : Cfg} {s : St} {l : List (Env × Op)} (h : ∀ e, Spec.perOp cfg s l ≠ .error e) : Spec.Unnoticed cfg s l := by
  unfold Spec.Unnoticed
  cases hx : Spec.perOp cfg s l with
  | error e => exact absurd hx (h e)
  | ok x => exact C122_measuring_partial hx

/-- Connected, one list with one ODT of one entry, running on event channel 0. -/
def Ex.measuringOne : List (Env × Op) :=
  [Ex.c [0xFF], Ex.c [0xD6], Ex.c [0xD5, 0, 1, 0], Ex.c [0xD4, 0, 0, 0, 1], Ex.c [0xD3, 0, 0, 0, 0, 1], Ex.c [0xE2, 0, 0, 0, 0, 0],
    Ex.c [0xE1, 0xFF, 2, 0, 0x10, 0, 0, 0], Ex.c [0xE0, 0, 0, 0, 0, 0, 1, 0], Ex.c [0xDE, 2, 0, 0], Ex.c [0xDD, 1]]

/-- The full statement is false: the fifth event leaves the queue (C34); without events nothing stops the
slave. -/
theorem C122_fails : ∃ l, ¬ Spec.Unnoticed Ex.sim (St.init Ex.sim Ex.mem) l := by
  refine ⟨Ex.measuringOne ++ List.replicate 5 (Ex.env, .trigger 0), fun h => ?_⟩
  have h1 := congrArg (fun r => r.toOption.isSome) h
  revert h1
  decide +kernel

/-- Between the answers to DOWNLOAD and SHORT_UPLOAD two events are triggered: two DAQ packets, and the answers
are those of the history without the events. -/
example :
    ((Spec.perOp Ex.sim (St.init Ex.sim Ex.mem) (Ex.measuringOne ++ [Ex.c Ex.mta, (Ex.env, .trigger 0), Ex.c [0xF0, 2, 7, 8], (Ex.env, .trigger 0),
      Ex.c [0xF4, 2, 0, 0, 0x34, 0x12, 0, 0]])).toOption.map fun x => (x.1.drop 10).map Prod.snd)
      = some [[(.cto, [0xFF])], [(.dto, [0, 16, 17])], [(.cto, [0xFF])], [(.dto, [0, 16, 17])], [(.cto, [0xFF, 7, 8])]]
    ∧ ((Spec.perOp Ex.sim (St.init Ex.sim Ex.mem) (Ex.measuringOne ++ [Ex.c Ex.mta, Ex.c [0xF0, 2, 7, 8],
      Ex.c [0xF4, 2, 0, 0, 0x34, 0x12, 0, 0]])).toOption.map fun x => (x.1.drop 10).map Prod.snd)
      = some [[(.cto, [0xFF])], [(.cto, [0xFF])], [(.cto, [0xFF, 7, 8])]] := by decide +kernel

end Xcp
