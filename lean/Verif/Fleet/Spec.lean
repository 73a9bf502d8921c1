import Verif.Fleet.Model
/-
Vocabulary for the properties of the gateway together with its schedulers.
-/
namespace Verif.Fleet
open Verif.Backend (Cfg)

/-- What a scheduler may have: the number it requests, up to the cluster's limit. -/
def limited (limit : Option Nat) (count : Int) : Int :=
  match limit with
  | none => count
  | some k => min count k

/-- In the course of the history the scheduler of cluster `n` sent a heartbeat in which worker `x` was announced as closing. -/
def Announced (cfg : Cfg) (env : Env) (items : List Item) (n x : Nat) : Prop :=
  ∃ before after note, items = before ++ after ∧ ((run cfg env before).sch n).phase = .sent note ∧
    ∃ y ∈ note.msg.closing, env.num y = x

/-- Whenever the scheduler of cluster `n` makes a heartbeat, no more workers are connected to it than it requests. -/
def NoSurplus (cfg : Cfg) (env : Env) (items : List Item) (n : Nat) : Prop :=
  ∀ before toClose after, items = before ++ .make n toClose :: after →
    (((run cfg env before).sch n).svc.active.length : Int) ≤ ((run cfg env before).sch n).count

end Verif.Fleet
