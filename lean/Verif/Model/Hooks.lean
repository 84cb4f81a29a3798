import Verif.Model.Dispatch
/-
The hook functions of the example application: examples/xcpsim/app_config.c.
-/
set_option autoImplicit false
namespace Xcp

/-- `XCP_LOBYTE`, `XCP_HIBYTE`, `XCP_LOWORD`, `XCP_HIWORD` of a 32-bit value, inc/xcp_macros.h:53-67. -/
def macLoByte (w : UInt32) : UInt32 := w &&& 0xFF
def macHiByte (w : UInt32) : UInt32 := (w &&& 0xFF00) >>> 8
def macLoWord (w : UInt32) : UInt32 := w &&& 0xFFFF
def macHiWord (w : UInt32) : UInt32 := (w &&& 0xFFFF0000) >>> 16

/-- The seed of `Xcp_HookFunction_GetSeed`, examples/xcpsim/app_config.c:100-104, `ts` is the timer.  The macros
are nested the way they are there: byte first, then word. -/
def simSeed (ts : UInt32) : List UInt8 :=
  [(macHiWord (macHiByte ts)).toUInt8, (macHiWord (macLoByte ts)).toUInt8,
   (macLoWord (macHiByte ts)).toUInt8, (macLoWord (macLoByte ts)).toUInt8]

/-- `unlock_key`, examples/xcpsim/app_config.c:105-108 (`KEY_INITIAL` is 0xBC). -/
def simKey (seed : List UInt8) : List UInt8 :=
  let k0 := (seed.getD 0 0 + seed.getD 3 0) ^^^ 0xBC
  let k1 := seed.getD 1 0 ^^^ k0
  let k2 := seed.getD 2 0 ^^^ k1
  let k3 := seed.getD 3 0 ^^^ k2
  [k0, k1, k2, k3]

/-- The slave and the variable `unlock_key`. -/
structure SimSt where
  s   : St
  key : List UInt8

/-- `unlock_key` is zero at first, examples/xcpsim/app_config.c:89. -/
def SimSt.init (cfg : Cfg) (mem : Mem) : SimSt := ⟨St.init cfg mem, [0, 0, 0, 0]⟩

/-- The hooks of the example, examples/xcpsim/app_config.c:92-131: every memory access is allowed; UNLOCK compares
four bytes of the packet with `unlock_key` and ignores the length byte.  GET_ID and the address
mapper stay arbitrary, they are taken from `env`, as is the timer. -/
def simEnv (env : Env) (key : List UInt8) : Env :=
  { env with
    memCheck := fun _ _ _ _ => true
    seed := fun _ => simSeed env.timer
    unlock := fun _ k _ => k.take 4 == key }

/-- Whether the operation calls `Xcp_HookFunction_GetSeed` (src/xcp.c:945-973, 1140-1185): an executed GET_SEED for
a known and protected resource while no programming is active. -/
def seedHookCalled (cfg : Cfg) (s : St) : Op → Bool
  | .cmd p =>
    s.connected && !s.busy && p.buf[0]? == some 0xF8 && cfg.supports .getSeed && (s.pgm != .active) &&
      match p.buf[2]? with
      | some r => seedResourceOk cfg r && isProtected cfg s r
      | none => false
  | _ => false

/-- One operation of the example application. -/
def SimSt.step (cfg : Cfg) (env : Env) (x : SimSt) (op : Op) : Except Fault SimSt := do
  let s ← Xcp.step cfg (simEnv env x.key) x.s op
  return ⟨s, if seedHookCalled cfg x.s op then simKey (simSeed env.timer) else x.key⟩

/-- A history of the example application. -/
def SimSt.run (cfg : Cfg) : SimSt → List (Env × Op) → Except Fault SimSt
  | x, [] => .ok x
  | x, (env, op) :: rest => do
    let y ← x.step cfg env op
    SimSt.run cfg y rest

end Xcp
