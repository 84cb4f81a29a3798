import Verif.Spec.Params
import Verif.Spec.Session
/-
Vocabulary for the dynamic DAQ configuration: allocation requests, the configuration they
describe, and how it is laid out in the pool of the slave.
-/
set_option autoImplicit false
namespace Xcp.Spec

/-- An allocation request of the master. -/
inductive AllocReq where
  /-- FREE_DAQ -/
  | free
  /-- ALLOC_DAQ: `n` lists -/
  | daq (n : Nat)
  /-- ALLOC_ODT: `n` ODTs for list `list` -/
  | odt (list n : Nat)
  /-- ALLOC_ODT_ENTRY: `n` entries for ODT `odt` of list `list` -/
  | entry (list odt n : Nat)
deriving DecidableEq, Repr

/-- The place of a request in the prescribed order. -/
def AllocReq.rank : AllocReq → Nat
  | .free => 0
  | .daq _ => 1
  | .odt _ _ => 2
  | .entry _ _ _ => 3

/-- How many elements of the pool a request asks for. -/
def AllocReq.size : AllocReq → Nat
  | .free => 0
  | .daq n => n
  | .odt _ n => n
  | .entry _ _ n => n

/-- After a request of place `phase`, the next one must be FREE_DAQ, or of the same or the
next place. -/
def AllocReq.legal (phase : Nat) (r : AllocReq) : Prop := r.rank = 0 ∨ r.rank = phase ∨ r.rank = phase + 1

instance (phase : Nat) (r : AllocReq) : Decidable (r.legal phase) := by unfold AllocReq.legal; infer_instance

/-- The packet encodes the request. -/
def IsReq (motorola : Bool) (p : Pdu) : AllocReq → Prop
  | .free => code p = some 0xD6
  | .daq n => code p = some 0xD5 ∧ Param motorola p 2 2 n
  | .odt l n => code p = some 0xD4 ∧ Param motorola p 2 2 l ∧ n < 256 ∧ p.buf[4]? = some (UInt8.ofNat n)
  | .entry l o n => code p = some 0xD3 ∧ Param motorola p 2 2 l ∧ o < 256 ∧ p.buf[4]? = some (UInt8.ofNat o) ∧
      n < 256 ∧ p.buf[5]? = some (UInt8.ofNat n)

/-- A DAQ configuration: for each list, for each of its ODTs, the number of entries. -/
abbrev Conf := List (List Nat)

/-- What a request asks for. -/
def Conf.apply (c : Conf) : AllocReq → Conf
  | .free => []
  | .daq n => c ++ List.replicate n []
  | .odt l n => c.set l (List.replicate n 0)
  | .entry l o n => c.modify l (fun odts => odts.set o n)

/-- The request names a list or ODT that exists and that has not been given ODTs or entries
before. -/
def Conf.admits (c : Conf) : AllocReq → Prop
  | .free => True
  | .daq _ => True
  | .odt l _ => c[l]? = some []
  | .entry l o _ => ∃ odts, c[l]? = some odts ∧ odts[o]? = some 0

/-- Number of ODTs. -/
def Conf.odts (c : Conf) : Nat := (c.map List.length).sum

/-- The first PID of list `l`: the number of ODTs of the lists before it. -/
def Conf.firstPid (c : Conf) (l : Nat) : Nat := ((c.take l).map List.length).sum

/-- Number of lists, ODTs and ODT entries together. -/
def Conf.size (c : Conf) : Nat := c.length + (c.map fun odts => odts.length + odts.sum).sum

/-- Something that needs an element of the pool. -/
inductive Owner where
  | list (i : Nat)
  | odt (i j : Nat)
  | entry (i j k : Nat)
deriving DecidableEq, Repr

/-- It exists in the configuration. -/
def Conf.has (c : Conf) : Owner → Prop
  | .list i => i < c.length
  | .odt i j => ∃ odts, c[i]? = some odts ∧ j < odts.length
  | .entry i j k => ∃ odts m, c[i]? = some odts ∧ odts[j]? = some m ∧ k < m

/-- The element of the pool it is found in by the slave. -/
def slot (d : Daq) : Owner → Nat
  | .list i => i
  | .odt i j => (d.entities i).first + j
  | .entry i j k => (d.entities ((d.entities i).first + j)).first + k

/-- The pool element used for an ODT of a list. -/
def odtIndex (d : Daq) (list odt : Nat) : Nat := ((d.entities list).first + odt) % 256

/-- The pool element used for an entry of an ODT of a list. -/
def entryIndex (d : Daq) (list odt entry : Nat) : Nat := ((d.entities (odtIndex d list odt)).first + entry) % 256

/-- The pool of the slave holds exactly the configuration `c`. -/
structure Rep (cfg : Cfg) (d : Daq) (c : Conf) : Prop where
  lists : d.listCount = c.length
  odtCount : d.odtCount = c.odts
  used : d.entityCount = c.size
  fits : c.size ≤ cfg.maxEnt
  listNum : ∀ i odts, c[i]? = some odts → (d.entities i).num = odts.length
  odtNum : ∀ i j odts m, c[i]? = some odts → odts[j]? = some m → (d.entities (slot d (.odt i j))).num = m
  inside : ∀ o, c.has o → slot d o < d.entityCount
  disjoint : ∀ o o', c.has o → c.has o' → slot d o = slot d o' → o = o'
  fresh : ∀ i, d.entityCount ≤ i → (d.entities i).w = 0

end Xcp.Spec
