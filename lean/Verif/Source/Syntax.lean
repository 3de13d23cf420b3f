import Verif.Model.Py
/-!
# The part of Python's grammar that the functions of atoparser are written in

An abstract syntax tree, node for node that of Python's own `ast` module.  `Verif/Source/Text.lean` holds the trees of
the functions of /repo, written out mechanically by tools/gen_source.py; `Verif/Source/Semantics.lean` says what they
mean.  Local names are strings; global names, attributes and string constants are code point lists.  As in Python, a
name is local to a function when the function binds it somewhere, and global otherwise.
-/

namespace Atop.Src

/-- Constants. -/
inductive Const
  | none
  | bool (b : Bool)
  | int (i : Int)
  | str (s : PyStr)

/-- Binary operators. -/
inductive BinOp
  | add
  | mul
  | bitAnd
  | rshift
  | sub
  | div

/-- Comparison operators. -/
inductive CmpOp
  | eq
  | notEq
  | lt
  | ltE
  | gt
  | gtE
  | is
  | isNot
  | isIn
  | notIn

mutual
/-- Expressions. -/
inductive Expr
  | const (c : Const)
  /-- a local name -/
  | name (x : String)
  /-- a global or built-in name -/
  | glob (x : PyStr)
  /-- `e.a` -/
  | attr (e : Expr) (a : PyStr)
  /-- `f(args, k=v, ...)` -/
  | call (f : Expr) (args : Exprs) (kws : Kws)
  | bin (op : BinOp) (a b : Expr)
  | cmp (op : CmpOp) (a b : Expr)
  /-- `a and b` -/
  | and (a b : Expr)
  /-- `not a` -/
  | not (a : Expr)
  /-- `body if test else orelse` -/
  | ifExp (test body orelse : Expr)
  /-- `e[i]` -/
  | sub (e i : Expr)
  /-- `e[lo:hi]`; an absent bound is the constant `None` -/
  | slice (e lo hi : Expr)
  | list (es : Exprs)
  | tuple (es : Exprs)
  | dict (kvs : Items)
  /-- an f-string: literal parts are constants, replacement fields are `fmt` -/
  | fstr (parts : Exprs)
  /-- `{e}` inside an f-string -/
  | fmt (e : Expr)
  /-- `{e:spec}` inside an f-string -/
  | fmtSpec (e : Expr) (spec : PyStr)
  /-- `[elt for x in iter]` -/
  | listComp (elt : Expr) (x : String) (iter : Expr)
  /-- `(elt for x in iter)` -/
  | genExp (elt : Expr) (x : String) (iter : Expr)
  /-- `{k: v for x in iter}` -/
  | dictComp (k v : Expr) (x : String) (iter : Expr)
/-- A list of expressions. -/
inductive Exprs
  | nil
  | cons (e : Expr) (rest : Exprs)
/-- Keyword arguments. -/
inductive Kws
  | nil
  | cons (k : String) (e : Expr) (rest : Kws)
/-- The entries of a dictionary display. -/
inductive Items
  | nil
  | cons (k v : Expr) (rest : Items)
end

mutual
/-- Statements. -/
inductive Stmt
  /-- `target = e`, the target being a name, an attribute or a subscription -/
  | assign (target : Expr) (e : Expr)
  /-- `x, y, ... = e` -/
  | unpack (xs : List String) (e : Expr)
  /-- `x op= e` -/
  | aug (x : String) (op : BinOp) (e : Expr)
  | expr (e : Expr)
  /-- `yield e` (as a statement) -/
  | yield (e : Expr)
  | ifte (test : Expr) (body orelse : Block)
  /-- `for x, y, ... in iter: body`; one name is not unpacked -/
  | for (xs : List String) (iter : Expr) (body : Block)
  /-- `try: body  except exc: handler` -/
  | try (body : Block) (exc : Expr) (handler : Block)
  | raise (e : Expr)
  /-- `raise` -/
  | reraise
  | ret (e : Expr)
  | brk
  /-- `with e as x: body` -/
  | with (e : Expr) (x : String) (body : Block)
/-- A sequence of statements. -/
inductive Block
  | nil
  | cons (s : Stmt) (rest : Block)
end

/-- A function definition.  `defaults` belong to the last parameters, as in `ast.arguments`. -/
structure FnDef where
  name : PyStr
  params : List String
  defaults : List Expr
  body : Block

/-- The statements at the top level of a module or class. -/
inductive Decl
  /-- `import m` -/
  | import (m : PyStr)
  /-- `from m import x` -/
  | fromImport (m x : PyStr)
  /-- `x = e` -/
  | assign (x : PyStr) (e : Expr)
  /-- `def ...` -/
  | def (f : FnDef)
  /-- `@property def ...` -/
  | property (f : FnDef)

/-- The statements at the top level of a module that declares classes. -/
inductive TopDecl
  | plain (d : Decl)
  /-- `class name(bases): body` -/
  | class (name : PyStr) (bases : List Expr) (body : List Decl)

/-- `exprs![a, b]` -/
syntax "exprs![" term,* "]" : term
macro_rules
  | `(exprs![]) => `(Exprs.nil)
  | `(exprs![$e]) => `(Exprs.cons $e Exprs.nil)
  | `(exprs![$e, $es,*]) => `(Exprs.cons $e exprs![$es,*])

/-- `block![s, t]` -/
syntax "block![" term,* "]" : term
macro_rules
  | `(block![]) => `(Block.nil)
  | `(block![$e]) => `(Block.cons $e Block.nil)
  | `(block![$e, $es,*]) => `(Block.cons $e block![$es,*])

end Atop.Src
