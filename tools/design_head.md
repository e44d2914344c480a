# Design

Machine-checked model of oclint (static analysis tool for C, C++ and Objective-C) in Lean 4.
`properties.jsonl` lists what is claimed, `MANIFEST.json` which theorems prove it, and
`AXIOMS.md` which axioms each of those theorems depends on.

## Method

The C++ sources are read as text and modelled function by function as total, computable Lean
functions. Every definition under `Model/` cites the file and lines it models, and says where it is
simplified. The properties are stated with definitions of their own (`Spec/`), mostly inductive
relations, and proved for all inputs, states and executions.

Layout under `lean/Verif/`:

* `Model/*`   definitions that mirror the C++ code
* `Spec/*`    small independent specifications
* `Lemmas/*`  helper lemmas
* `Props/*`   the property theorems `Oclint.Cnn_...`, with concrete examples next to them

Names: `Cnn_..._partial` proves part of property Cnn and says what is missing; `Cnn_..._witness` is a
concrete case in which the full claim is false of the code, so the claim cannot be proved in full.

Conventions of the model:

* `std::string` is `List Char`, one `Char` per byte.
* Pointers to rules are numbers; a pointer that may be null is an `Option`.
* `Outcome` has three cases: a result, a thrown exception, undefined behaviour (signed overflow,
  null dereference, out of bounds access). No theorem holds merely because Lean functions are total:
  where the code has undefined behaviour, the model says so.
* `std::map` and `std::set` are association lists without duplicate keys. For unordered containers
  the hash function or the order of iteration is a parameter.
* A rule is modelled by what its `Visit...` methods report for one node of the syntax tree
  (`...Visit : Stmt → List Stmt`); `reportOver` applies it to all nodes in traversal order.
* Syntax trees (`Model/Ast.lean`) keep what the modelled rules ask Clang for.

## Trusted base

* Lean's kernel.
* The axioms `propext`, `Classical.choice` and `Quot.sound`; no others. See `AXIOMS.md` for each
  theorem. No `sorry`, no own axioms, no `native_decide`, no `bv_decide`.
* The correspondence between the C++ text and the Lean definitions, which is by reading.
* That the specifications say what is meant.

Inputs of the model, about which nothing or only what is named is assumed:

* Clang: parsing, syntax trees, source positions, the recursive traversal order, constant evaluation
  (C48 assumes that it is right where it gives a value), comparison of expressions by profile (C66).
* The file system, `dlopen`, the environment, the time of day, YAML parsing, the standard streams.
* The semantics of C used for the advice of the rules (`Spec/Semantics.lean`): a big step semantics of
  statements with `break`, `continue`, `return`, `goto`, labels, `switch`, exceptions, and of
  expressions with short circuit evaluation. What it leaves open (other expressions and statements,
  values, states) is a parameter (`World`), so the theorems hold for every choice of it. Destructors
  and the scope of declarations are not modelled.

