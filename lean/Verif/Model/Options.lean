import Verif.Model.Base
/-
The command line: src/hw/options.c.
-/
set_option autoImplicit false
namespace Xcp

/-- An argument, a string without its terminating zero. -/
abbrev Arg := List Char

/-- What a call of `getopt` delivers: the option character (`?` for an error) and `optarg`. -/
abbrev GetOpt := Char × Option Arg

/-- The option strings of src/hw/options.c:39-43: whether a character is an option, and whether it takes an argument. -/
inductive OptKind where
  | none | flag | arg
deriving DecidableEq, Repr

/-- `"htu46p:"`. -/
def ethOpts (c : Char) : OptKind :=
  if c = 'h' ∨ c = 't' ∨ c = 'u' ∨ c = '4' ∨ c = '6' then .flag else if c = 'p' then .arg else .none

/-- `"hi:f"`. -/
def canOpts (c : Char) : OptKind :=
  if c = 'h' ∨ c = 'f' then .flag else if c = 'i' then .arg else .none

/-- The options in one argument, the characters after `-`, and the option that still waits for its argument. -/
def optCluster (k : Char → OptKind) : List Char → List GetOpt × Option Char
  | [] => ([], none)
  | c :: cs =>
    match k c with
    | .none => let (os, p) := optCluster k cs; (('?', none) :: os, p)
    | .flag => let (os, p) := optCluster k cs; ((c, none) :: os, p)
    | .arg => if cs.isEmpty then ([], some c) else ([(c, some cs)], none)

/-- The results of calling `getopt` until it returns -1, src/hw/options.c:122.  This is the C library: `-ab` is `-a -b`, the argument
of an option is the rest of the word or the next word, `--` ends the options, other words are
skipped (glibc without POSIXLY_CORRECT). -/
def getopts (k : Char → OptKind) : Option Char → List Arg → List GetOpt
  | none, [] => []
  | some _, [] => [('?', none)]
  | some c, a :: as => (c, some a) :: getopts k none as
  | none, a :: as =>
    match a with
    | '-' :: c :: cs =>
      if c = '-' ∧ cs = [] then []
      else
        let (os, p) := optCluster k (c :: cs)
        os ++ getopts k p as
    | _ => getopts k none as

/-- `Xcp_OptionsType` for Ethernet, inc/xcp.h:925-929. -/
structure EthOptions where
  ipv6 : Bool
  tcp  : Bool
  port : Nat
deriving DecidableEq, Repr

/-- How `parse_options` ends. -/
inductive Parsed (α : Type) where
  | ok (a : α)
  /-- `exit(n)` -/
  | exit (n : Nat)
  /-- undefined behaviour -/
  | ub
deriving DecidableEq, Repr

/-- Value of the digits at the start of a string. -/
def atoiDigits (acc : Nat) : List Char → Nat
  | [] => acc
  | c :: cs => if c.isDigit then atoiDigits (acc * 10 + (c.toNat - 48)) cs else acc

/-- Optional sign and digits. -/
def atoiSigned : List Char → Int
  | [] => 0
  | c :: cs => if c = '-' then -(atoiDigits 0 cs : Int) else if c = '+' then atoiDigits 0 cs else atoiDigits 0 (c :: cs)

/-- `atoi` of the C library (called at src/hw/options.c:162): white space, sign, digits; undefined if the value does not
fit in `int`. -/
def atoi (s : List Char) : Option Int :=
  let v := atoiSigned (s.dropWhile fun c => c = ' ' ∨ c = '\t' ∨ c = '\n' ∨ c = '\r' ∨ c.toNat = 11 ∨ c.toNat = 12)
  if -2147483648 ≤ v ∧ v ≤ 2147483647 then some v else none

/-- `XCP_ETH_DEFAULT_PORT`, inc/xcp.h:515. -/
def ethDefaultPort : Nat := 5555

/-- The loop of `parse_options`, src/hw/options.c:122-165, Ethernet.  `p`, `v` are `p_assigned`, `v_assigned`. -/
def parseEthLoop (o : EthOptions) (p v : Bool) : List GetOpt → Parsed EthOptions
  | [] => .ok o
  | (c, a) :: os =>
    if c = 'h' ∨ c = '?' then .exit 0
    else if c = 't' then if p then .exit 1 else parseEthLoop { o with tcp := true } true v os
    else if c = 'u' then if p then .exit 1 else parseEthLoop { o with tcp := false } true v os
    else if c = '4' then if v then .exit 1 else parseEthLoop { o with ipv6 := false } p true os
    else if c = '6' then if v then .exit 1 else parseEthLoop { o with ipv6 := true } p true os
    else if c = 'p' then
      match atoi (a.getD []) with
      | none => .ub
      | some n => parseEthLoop { o with port := (n % 65536).toNat } p v os
    else parseEthLoop o p v os

/-- `parse_options` for Ethernet on POSIX systems, src/hw/options.c:105-181. -/
def parseEth (args : List Arg) : Parsed EthOptions :=
  parseEthLoop ⟨false, true, ethDefaultPort⟩ false false (getopts ethOpts none args)

/-- `Xcp_OptionsType` for CAN, inc/xcp.h:932-934. -/
structure CanOptions where
  fd   : Bool
  interf : Arg
deriving DecidableEq, Repr

/-- The loop for CAN, src/hw/options.c:122-172: `strcpy` into an array of 64 characters. -/
def parseCanLoop (fd : Bool) (interf : Option Arg) : List GetOpt → Parsed (Bool × Option Arg)
  | [] => .ok (fd, interf)
  | (c, a) :: os =>
    if c = 'h' ∨ c = '?' then .exit 0
    else if c = 'f' then parseCanLoop true interf os
    else if c = 'i' then if (a.getD []).length < 64 then parseCanLoop fd (some (a.getD [])) os else .ub
    else parseCanLoop fd interf os

/-- `parse_options` for CAN on POSIX systems, src/hw/options.c:105-181. -/
def parseCan (args : List Arg) : Parsed CanOptions :=
  match parseCanLoop false none (getopts canOpts none args) with
  | .ok (fd, interf) => .ok ⟨fd, interf.getD "vcan0".toList⟩
  | .exit n => .exit n
  | .ub => .ub

/-- `locate_interface`, src/tl/can/linux_socket_can.c:66-75: `strcpy` into `ifr_name`, which has 16 characters.
What the operating system finds under the name is left open. -/
def locateInterface (name : Arg) : Parsed Arg := if name.length < 16 then .ok name else .ub

/-- One argument on Windows, src/hw/options.c:56-78.  Reading `arg[1]` of an empty argument is not reached because
`arg[0]` is then the terminating zero. -/
def winOpt (o : EthOptions) : Arg → EthOptions
  | x :: c :: _ =>
    if x = '/' ∨ x = '-' then
      if c = '4' then { o with ipv6 := false }
      else if c = '6' then { o with ipv6 := true }
      else if c = 'u' then { o with tcp := false }
      else if c = 't' then { o with tcp := true }
      else o
    else o
  | _ => o

/-- `parse_options` on Windows, Ethernet, src/hw/options.c:49-81.  The port is not set, it stays 0 (`Xcp_Options` is
initialised with zeros, examples/xcpsim/main.c:33) and is not used: src/tl/eth/wineth.c listens on
the constant port 5555. -/
def parseWin (args : List Arg) : EthOptions := args.foldl winOpt ⟨false, true, 0⟩

/-- The port the slave listens on, src/tl/eth/linuxeth.c:82, src/tl/eth/wineth.c:93 with the constant. -/
def listenPort (windows : Bool) (o : EthOptions) : Nat := if windows then ethDefaultPort else o.port

/-- The port shown to the user, src/tl/eth/common.c:235-242. -/
def shownPort (_ : EthOptions) : Nat := ethDefaultPort

end Xcp
