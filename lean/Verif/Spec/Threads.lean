import Verif.Model.Threads

/-!
# What is promised about threads sharing the TLS library
-/

namespace Rmq

/-- The variable the next action of a thread accesses, and whether it writes it. -/
def Code.access : Code → Option (GVar × Bool)
  | .get v _ => some (v, false)
  | .set v _ _ => some (v, true)
  | _ => none

/-- A data race: two threads about to access the same variable, at least one of them writing. -/
def Procs.Race (w : Procs) : Prop :=
  ∃ (i j : Nat) (c c' : Code) (v : GVar) (b b' : Bool), i ≠ j ∧ w.threads[i]? = some c ∧ w.threads[j]? = some c' ∧ c.access = some (v, b) ∧ c'.access = some (v, b') ∧
    (b = true ∨ b' = true)

/-- The thread can act now: it has something left to do and is not waiting for the mutex. -/
def Procs.Ready (w : Procs) (i : Nat) : Prop :=
  ∃ c, w.threads[i]? = some c ∧ c ≠ .done ∧ ∀ l k, c = .lock l k → w.owner = none

/-- Every thread has finished. -/
def Procs.Finished (w : Procs) : Prop := ∀ c, c ∈ w.threads → c = .done

/-- BIO_meth_new does not fail (it allocates a few hundred bytes). -/
def SetUpsWork : List TlsCmd → Prop
  | [] => True
  | .create a :: cs => a.bio = true ∧ SetUpsWork cs
  | _ :: cs => SetUpsWork cs

/-- How many TLS sockets a thread that has `n` is left with after its commands, when set-ups work: a creation adds one if memory, context
and version range are granted, a deletion of one it has removes it. -/
def socketsLeft : List TlsCmd → Nat → Nat
  | [], n => n
  | .create a :: cs, n => socketsLeft cs (if a.calloc = true ∧ a.ctx = true ∧ a.versions = true then n + 1 else n)
  | .delete i :: cs, n => socketsLeft cs (if i < n then n - 1 else n)
  | _ :: cs, n => socketsLeft cs n

/-- All the sockets the threads are left with. -/
def socketsLeftAll (progs : List (List TlsCmd)) : Nat := (progs.map fun p => socketsLeft p 0).sum

/-- The calls one after the other, each as a whole, by the functions of `Verif.Model.Tls`. -/
def oneByOne (asserts : Bool) : List TlsCall → TlsGlobal → Option TlsGlobal
  | [], g => some g
  | .inc bio :: cs, g =>
    match incConnections asserts bio g with
    | some (_, g) => oneByOne asserts cs g
    | none => none
  | .dec :: cs, g =>
    match decConnections asserts g with
    | some g => oneByOne asserts cs g
    | none => none
  | .engine :: cs, g => oneByOne asserts cs g

/-- The shared variables hold what the global state of `Verif.Model.Tls` says. -/
structure Holds (s : Shared) (g : TlsGlobal) : Prop where
  init : s.g.init = if g.initialized then 1 else 0
  conns : s.g.conns = g.connections
  bioInit : s.g.bioInit = if g.bioInitialized then 1 else 0
  method : (s.g.method ≠ 0) ↔ g.method = true

end Rmq
