import Verif.Model.Locks

/-! # What "the calls do not block each other" means -/

namespace Verif.Spec.Lk
open Verif Verif.Lk

/-- what a thread still has to do with mutexes, and the mutexes it holds -/
structure Thread where
  held : List Lock
  todo : List Act
  deriving DecidableEq

/-- a mutex is taken when some thread holds it -/
def Taken (s : List Thread) (l : Lock) : Prop := ∃ t ∈ s, l ∈ t.held

instance (s : List Thread) (l : Lock) : Decidable (Taken s l) := by unfold Taken; infer_instance

/-- a thread can move: it has something left to do and, if that is taking a mutex, nobody (not even itself) holds it -/
def CanMove (s : List Thread) (t : Thread) : Prop :=
  match t.todo with
  | [] => False
  | .acq l :: _ => ¬ Taken s l
  | _ :: _ => True

instance (s : List Thread) (t : Thread) : Decidable (CanMove s t) := by unfold CanMove; split <;> infer_instance

/-- the thread does the next thing -/
def Thread.move (t : Thread) : Thread :=
  match t.todo with
  | [] => t
  | .acq l :: as => ⟨l :: t.held, as⟩
  | .rel l :: as => ⟨t.held.erase l, as⟩
  | .wait :: as => ⟨t.held, as⟩

/-- the scheduler picks thread `i`: it moves if it can, else it stays blocked -/
def step (s : List Thread) (i : Nat) : List Thread :=
  match s[i]? with
  | none => s
  | some t => if CanMove s t then s.set i t.move else s

/-- a schedule -/
def run (s : List Thread) (sched : List Nat) : List Thread := sched.foldl step s

/-- all threads have returned from all their calls -/
def Finished (s : List Thread) : Prop := ∀ t ∈ s, t.todo = []

/-- nobody can move although not all have finished -/
def Deadlock (s : List Thread) : Prop := ¬ Finished s ∧ ∀ t ∈ s, ¬ CanMove s t

/-- the threads `is` block each other for ever: however the others are scheduled, none of them ever finishes -/
def BlockedForEver (s : List Thread) (is : List Nat) : Prop := is ≠ [] ∧ ∀ sched, ∀ i ∈ is, ∃ t, (run s sched)[i]? = some t ∧ t.todo ≠ []

/-- a thread of the program: `life = some k` for the thread number `k` that another one may join, `none` for others, and the calls it makes with their traces -/
structure Prog where
  life : Option Nat
  traces : List (List Act)

/-- at the start a thread that can be joined is alive -/
def Prog.start (p : Prog) : Thread :=
  match p.life with
  | none => ⟨[], p.traces.flatten⟩
  | some k => ⟨[⟨.life, k⟩], p.traces.flatten ++ [.rel ⟨.life, k⟩]⟩

/-- the thread makes calls of the library, each with one of its traces; a thread that others join makes only the calls such threads make -/
def Prog.Legal (p : Prog) : Prop := ∀ t ∈ p.traces, ∃ c : Call, (p.life ≠ none → c.joined = true) ∧ Tr c.prog t

/-- every thread is scheduled again and again -/
def Fair (n : Nat) (f : Nat → Nat) : Prop := ∀ i < n, ∀ k, ∃ j, k ≤ j ∧ f j = i

/-- the first `k` choices of an endless schedule -/
def upTo (f : Nat → Nat) (k : Nat) : List Nat := (List.range k).map f

end Verif.Spec.Lk
