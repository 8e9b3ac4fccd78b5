import Verif.Model.Py
/-!
# Model of the choice of devices

`artist/util/env.py` 33-93 and 269-312.  What the operating system and PyTorch answer is a parameter.
-/
namespace Artist.Device
open Artist

/-- Types of devices that the code tells apart (`env.py` 65, 88, 296, 301, 307); every other type of PyTorch is `other`. -/
inductive Kind where
  | cpu
  | cuda
  | mps
  | other
  deriving DecidableEq, Repr

/-- `torch.device`: a type with or without a number (`env.py` 90, 296, 301, 307). -/
structure Dev where
  kind : Kind
  index : Option Nat
  deriving DecidableEq, Repr

/-- What `platform.system()`, `torch.cuda.is_available()` and `torch.cuda.device_count()` answer on a computer (`env.py` 89, 290, 297). -/
structure Computer where
  os : String
  available : Bool
  count : Nat

/-- `get_device` (`env.py` 269-312, names of systems from `constants.py` 207-211).  Logging is left out. -/
def getDevice (c : Computer) (device : Option Dev) : Dev :=
  match device with
  | none =>
    if c.os = "Linux" ∨ c.os = "Windows" then (if c.available then ⟨.cuda, none⟩ else ⟨.cpu, none⟩)
    else if c.os = "Darwin" then ⟨.cpu, none⟩
    else ⟨.cpu, none⟩
  | some d => d

/-- The two ways in which processes talk to each other (`env.py` 65). -/
inductive Backend where
  | nccl
  | gloo
  deriving DecidableEq, Repr

/-- What a process knows after `initialize_ddp_environment` (`env.py` 93), together with the device of PyTorch that `cuda` without a number refers to. -/
structure Started where
  device : Dev
  isDistributed : Bool
  rank : Nat
  worldSize : Nat
  current : Nat
  deriving DecidableEq, Repr

/-- `initialize_ddp_environment` (`env.py` 33-93).  `join` is what comes of joining the process group with a backend: rank and world size, or `none` for any `Exception`.  Simplified: an exception after the group has
been joined (lines 74-81) is the subject of C03.  `current` is 0 in a new process. -/
def start (c : Computer) (device : Option Dev) (join : Backend → Option (Nat × Nat)) : Except PyErr Started :=
  let d := getDevice c device
  let backend := if d.kind = .cuda then Backend.nccl else .gloo
  match join backend with
  | none => .ok ⟨d, false, 0, 1, 0⟩
  | some (rank, worldSize) =>
    if d.kind = .cuda then
      if c.count = 0 then .error .zeroDivision
      else .ok ⟨⟨.cuda, some (rank % c.count)⟩, true, rank, worldSize, rank % c.count⟩
    else .ok ⟨d, true, rank, worldSize, 0⟩

end Artist.Device
