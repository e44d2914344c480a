import Verif.Model.Argparse
import Verif.Spec.Registry
import Mathlib.Data.List.Forall2

/-!
# What is meant by a command line

Independent of how words are read: a command line says one thing after another, each changes what a
script is asked to do, and all of them are carried out in turn.
-/

namespace Oclint.Spec

open Oclint

/-- One thing that is said on a command line. -/
inductive Phrase where
  /-- `--clean` -/
  | flag (name : Str)
  /-- `--name value` -/
  | apart (name value : Str)
  /-- `--name=value` -/
  | joined (name value : Str)
  /-- the argument that has no name -/
  | bare (value : Str)

/-- How it is written. -/
def Phrase.words : Phrase → List Str
  | .flag n => [n]
  | .apart n v => [n, v]
  | .joined n v => [n ++ '=' :: v]
  | .bare v => [v]

/-- Is it the argument that has no name? -/
def Phrase.isBare : Phrase → Bool
  | .bare _ => true
  | _ => false

/-- A whole command line; `--` and the argument that has no name may end it. -/
def spoken (said : List Phrase) (last : Option Str) : List Str :=
  said.flatMap Phrase.words ++ (match last with | none => [] | some v => [['-', '-'], v])

/-- A word that cannot be mistaken for an option: it does not begin with a dash, or it is a number below
zero. -/
def Plain (w : Str) : Prop := w.head? ≠ some '-' ∨ ∃ n, w = '-' :: decimal n

/-- The options of a parser have names like `-x` and `--long`, all different, without `=`, and not like
numbers. -/
structure Tidy {σ : Type} (p : ArgParser σ) : Prop where
  dash : ∀ o ∈ p.options, o.1.head? = some '-'
  long : ∀ o ∈ p.options, 2 ≤ o.1.length
  noEq : ∀ o ∈ p.options, '=' ∉ o.1
  notDashes : ∀ o ∈ p.options, o.1 ≠ ['-', '-']
  noDigit : ∀ o ∈ p.options, ∀ c ∈ o.1[1]?, c.isDigit = false
  once : (p.options.map (·.1)).Nodup

/-- What is asked for by something that is said; `none` if it is not allowed. -/
inductive PhraseMeans {σ : Type} (p : ArgParser σ) : Phrase → (σ → Option σ) → Prop where
  | flag {n : Str} {f : σ → σ} : (n, OptAction.flag f) ∈ p.options → PhraseMeans p (.flag n) fun s => some (f s)
  | apart {n v : Str} {f : Str → σ → Option σ} : (n, OptAction.value f) ∈ p.options → Plain v →
      PhraseMeans p (.apart n v) (f v)
  | joined {n v : Str} {f : Str → σ → Option σ} : (n, OptAction.value f) ∈ p.options →
      PhraseMeans p (.joined n v) (f v)
  | bare {v : Str} {q : Positional σ} : p.positional = some q → Plain v → PhraseMeans p (.bare v) (q.set v)

/-- One thing after the other. -/
def obeyAll {σ : Type} : List (σ → Option σ) → σ → Option σ
  | [], s => some s
  | f :: fs, s => (f s).bind (obeyAll fs)

/-- A request that can be carried out, or a command line that is refused. -/
def ofRequest {σ : Type} : Option σ → ParseResult σ
  | some s => .parsed s
  | none => .refused

/-- How often the argument that has no name is given. -/
def bareCount (said : List Phrase) (last : Option Str) : Nat :=
  (said.filter Phrase.isBare).length + (if last.isSome then 1 else 0)

/-- The argument that has no name is given as often as it should be. -/
def countOk {σ : Type} (q : Option (Positional σ)) (n : Nat) : Bool :=
  match q with
  | none => n == 0
  | some q => n == 1 || n == 0 && !q.required

/-- What `-- word` at the end asks for. -/
def lastEffect {σ : Type} (q : Option (Positional σ)) : Option Str → List (σ → Option σ)
  | none => []
  | some v => match q with
    | none => []
    | some q => [q.set v]

/-- What the words of `-llvm-root=` and a path, with `-release` and `-clean`, ask `build` for; a second word
is the name of a part. -/
def systemBuildArgs : List Str → Option BuildArgs
  | [w] => some { release := true, clean := true, llvmRoot := w.drop "-llvm-root=".toList.length }
  | [w, m] => (moduleChoice m).map fun o =>
      { moduleName := o, release := true, clean := true,
        llvmRoot := w.drop "-llvm-root=".toList.length }
  | _ => none

/-- A word that looks like an option of the parser and is none, nor the beginning of one. -/
structure NoOption {σ : Type} (p : ArgParser σ) (w : Str) : Prop where
  dash : w.head? = some '-'
  more : 2 ≤ w.length
  notDashes : w ≠ ['-', '-']
  noBlank : ' ' ∉ w
  notNumber : ∀ c ∈ w.tail.head?, c.isDigit = false ∧ c ≠ '.'
  /-- no name begins with it, or with what is before a `=` in it -/
  noName : ∀ o ∈ p.options, ¬ (w.takeWhile fun c => decide (c ≠ '=')) <+: o.1
  /-- no option with one letter begins it -/
  noLetter : ∀ o ∈ p.options, o.1 ≠ w.take 2

/-- Carrying something out on what a command line asks for. -/
def onRequest {σ : Type} (g : σ → σ) : ParseResult σ → ParseResult σ
  | .parsed s => .parsed (g s)
  | .refused => .refused
  | .helped => .helped

end Oclint.Spec
