import Verif.Core.Text
/-
What is said about pam_exec, in the words of pam_exec(8).
-/
namespace Pam.Exec.Spec
open Pam

abbrev Str := List Char

/-- the word `w`, in upper or lower case -/
def Word (w : String) (a : Str) : Prop := a.map lower = w.toList

/-- `key=value`, with the key in upper or lower case -/
def Setting (key : String) (a v : Str) : Prop := ∃ k, a = k ++ '=' :: v ∧ k.map lower = key.toList

/-- an argument that is an option of the module, and not the command -/
def IsOption (a : Str) : Prop :=
  (∃ w ∈ ["debug", "stdout", "seteuid", "quiet", "quiet_log", "expose_authtok"], Word w a) ∨ ∃ v, Setting "log" a v ∨ Setting "type" a v

/-- the arguments of the module: options, and then the command with its arguments -/
def Line (argv os : List Str) (cmd : Str) (args : List Str) : Prop :=
  argv = os ++ cmd :: args ∧ (∀ o ∈ os, IsOption o) ∧ ¬ IsOption cmd

/-- the word is among the options -/
def Has (w : String) (os : List Str) : Prop := ∃ o ∈ os, Word w o

/-- no option asks for another type -/
def ForType (type : Str) (os : List Str) : Prop := ∀ o ∈ os, ∀ t, Setting "type" o t → t = type

/-- the last log= among the options -/
def LogFile (os : List Str) (f : Str) : Prop :=
  ∃ a o b, os = a ++ o :: b ∧ Setting "log" o f ∧ ∀ x ∈ b, ∀ g, ¬ Setting "log" x g

/-- `getenv`: the value of the first entry with the name -/
def Getenv (env : List Str) (name v : Str) : Prop :=
  ∃ a b, env = a ++ (name ++ '=' :: v) :: b ∧ ∀ x ∈ a, ¬ (name ++ ['=']) <+: x

/-- `getenv` finds nothing -/
def NoEnv (env : List Str) (name : Str) : Prop := ∀ x ∈ env, ¬ (name ++ ['=']) <+: x

end Pam.Exec.Spec
