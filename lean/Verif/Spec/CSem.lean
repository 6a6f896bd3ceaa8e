import Verif.Spec.CLang

/-!
Specification: what code does that is written in the part of C of `Verif/Spec/CLang.lean`.
The code is executed step by step; what the language does not define, and what is not
described here, is a result of its own.

* A C string is the list of its characters without the final NUL; none of them is NUL.
* Integers have no bounds; a truth value is 0 or 1.
* Operands are evaluated from left to right.  A cast does not change a value.
* A `char` array in the structure with all data (`gdo_hndl`) holds a C string; the only
  thing assigned to an element of it is a NUL at the beginning.
-/

namespace Gdo.Cc
open Gdo Tmpl

/-- A value. -/
inductive V
  | int (n : Int)
  | chr (c : Char)
  | null
  /-- an address or handle given by the system -/
  | ptr (p : Nat)
  /-- the address of a constant C string -/
  | str (s : Str)
  /-- an array with a C string -/
  | arr (s : Str)
  /-- the address of an array in the structure with all data -/
  | buf (b : Str)
  /-- the address of a local variable: the number of functions called before, its name -/
  | loc (d : Nat) (x : Str)
  | fn (f : Str)
  /-- a stream, a macro of the system -/
  | obj (o : Str)
  /-- the address of a `link_map`: `l_addr` and `l_name` -/
  | lmap (a : Nat) (name : Option Str)
  /-- the address of an array of C strings, some of them missing -/
  | strs (l : List (Option Str))
  /-- an address given by the system, of a copy of a C string -/
  | copy (p : Nat) (s : Str)
  /-- the address of element `i` of an array of `n` elements at an address given by the
      system -/
  | mem (p i n : Nat)
  | void
  deriving DecidableEq, Repr

/-- The local variables of a function that is executed; `none`: no value yet. -/
structure Frame where
  fn : Str
  vars : List (Str × Option V)

/-- The state: data of the program and of the system, and the functions that are executed,
    the last one first. -/
structure M (σ : Type) where
  g : σ
  frames : List Frame

/-- What becomes of an execution; `fuel`: it was not followed to its end. -/
inductive R (σ α : Type)
  | ok (a : α) (m : M σ)
  | exit (code : Int) (m : M σ)
  | abort (m : M σ)
  /-- an exception of a class, with a message -/
  | thrown (x what : Str) (m : M σ)
  | ub
  | fuel

/-- One after the other. -/
def R.bind {σ α β : Type} (r : R σ α) (k : α → M σ → R σ β) : R σ β :=
  match r with
  | .ok a m => k a m
  | .exit c m => .exit c m
  | .abort m => .abort m
  | .thrown x t m => .thrown x t m
  | .ub => .ub
  | .fuel => .fuel

/-- A result, if it is defined. -/
def R.of {σ α : Type} (m : M σ) : Option α → R σ α
  | some a => .ok a m
  | none => .ub

/-- A way into an object in memory: a member, a member for a symbol, an element. -/
inductive Step
  | field (f : Str)
  | symbol (i : Nat)
  | index (i : Nat)
  deriving DecidableEq, Repr

/-- A place that can be read, and possibly written. -/
inductive Lv
  /-- a variable of the function that is executed -/
  | here (x : Str)
  | var (d : Nat) (x : Str)
  /-- a member of the structure with all data -/
  | member (f : Str)
  /-- an element of an array in it -/
  | elem (b : Str) (i : Nat)
  /-- the address of a symbol -/
  | sym (i : Nat)
  /-- a part of an object at an address given by the system -/
  | inside (p : Nat) (path : List Step)
  /-- something that is only read -/
  | val (v : V)

/-- What the code is executed with. -/
structure Sem (σ : Type) where
  /-- what is in a string literal -/
  lit : Str → Str
  /-- the value of a macro or of another name that is not declared in the code -/
  const : Str → Option V
  /-- a name that ends with the name of a symbol -/
  glued : Str → Str → Option Lv
  /-- macros that are replaced by nothing -/
  ignored : Str → Bool
  /-- the members of a structure type -/
  fields : List STok → List Str
  /-- the name of the structure with all data -/
  data : Str
  isBuf : Str → Bool
  getBuf : Str → σ → Str
  setBuf : Str → Str → σ → σ
  get : Str → σ → Option V
  set : Str → V → σ → Option σ
  getSym : Nat → σ → V
  setSym : Nat → V → σ → Option σ
  /-- objects at addresses given by the system -/
  getIn : Nat → List Step → σ → Option V := fun _ _ _ => none
  setIn : Nat → List Step → V → σ → Option σ := fun _ _ _ _ => none
  /-- the size of a type -/
  size : List STok → Option Nat := fun _ => none
  /-- variables that are not in a structure -/
  global : Str → Bool := fun _ => false
  /-- the functions of the system -/
  system : Str → Option (List V → M σ → R σ V)

variable {σ : Type}

/-! ### Variables -/

def getVar (x : Str) : List (Str × Option V) → Option (Option V)
  | [] => none
  | p :: r => if p.1 = x then some p.2 else getVar x r

def setVar (x : Str) (v : V) : List (Str × Option V) → Option (List (Str × Option V))
  | [] => none
  | p :: r => if p.1 = x then some ((x, some v) :: r) else (setVar x v r).map (p :: ·)

/-- The variables of the function that was called after `d` others. -/
def getFrame (d : Nat) : List Frame → Option Frame
  | [] => none
  | f :: r => if r.length = d then some f else getFrame d r

def setFrame (d : Nat) (g : Frame) : List Frame → List Frame
  | [] => []
  | f :: r => if r.length = d then g :: r else f :: setFrame d g r

/-- The function that is executed: the number of functions called before. -/
def depth (m : M σ) : Nat := m.frames.length - 1

/-- The local variables. -/
def locals (m : M σ) : List (Str × Option V) :=
  match m.frames with
  | [] => []
  | f :: _ => f.vars

/-- The name of a member of a local variable. -/
def fieldOf (x f : Str) : Str := x ++ '.' :: f

/-- The value of a variable; an array stands for its address. -/
def valueOf (m : M σ) : Option (Option V) → R σ V
  | some (some (.arr s)) => .ok (.str s) m
  | some (some v) => .ok v m
  | _ => .ub

def loadVar (d : Nat) (x : Str) (m : M σ) : R σ V := valueOf m ((getFrame d m.frames).bind fun f => getVar x f.vars)

def storeVar (d : Nat) (x : Str) (v : V) (m : M σ) : R σ V :=
  match (getFrame d m.frames).bind fun f => (setVar x v f.vars).map fun vs => { f with vars := vs } with
  | some f => .ok v { m with frames := setFrame d f m.frames }
  | none => .ub

def storeHere (x : Str) (v : V) (m : M σ) : R σ V :=
  match m.frames with
  | [] => .ub
  | f :: r =>
    match setVar x v f.vars with
    | some vs => .ok v { m with frames := { f with vars := vs } :: r }
    | none => .ub

/-- New variables of the function that is executed; their names must be new. -/
def declare (xs : List (Str × Option V)) (m : M σ) : R σ Unit :=
  match m.frames with
  | [] => .ub
  | f :: r =>
    if xs.all fun x => (getVar x.1 f.vars).isNone then .ok () { m with frames := { f with vars := xs ++ f.vars } :: r } else .ub

/-- The variables that were declared after there were `n` of them are gone. -/
def leave (n : Nat) (m : M σ) : M σ :=
  match m.frames with
  | [] => m
  | f :: r => { m with frames := { f with vars := f.vars.drop (f.vars.length - n) } :: r }

/-! ### Values -/

def V.ofBool (b : Bool) : V := .int (if b then 1 else 0)

/-- Whether a value counts as true. -/
def V.truth : V → Option Bool
  | .int n => some (n ≠ 0)
  | .chr _ => some true
  | .null => some false
  | .ptr _ => some true
  | .str _ => some true
  | .buf _ => some true
  | .loc _ _ => some true
  | .lmap _ _ => some true
  | .strs _ => some true
  | .copy _ _ => some true
  | .mem _ _ _ => some true
  | _ => none

/-- Whether two values are equal. -/
def V.eq : V → V → Option Bool
  | .int a, .int b => some (a = b)
  | .chr a, .chr b => some (a = b)
  | .chr _, .int 0 => some false
  | .int 0, .chr _ => some false
  | .null, .null => some true
  | .ptr a, .ptr b => some (a = b)
  | .ptr _, .null => some false
  | .str _, .null => some false
  | .buf _, .null => some false
  | _, _ => none

/-- The element of a C string. -/
def charAt (s : Str) (i : Nat) : Option V := if i = s.length then some (.int 0) else (s[i]?).map .chr

/-- An address and a number behind it. -/
def V.plus : V → V → Option V
  | .int a, .int b => some (.int (a + b))
  | .str s, .int (.ofNat n) => if n ≤ s.length then some (.str (s.drop n)) else none
  | .mem p i n, .int (.ofNat k) => if i + k ≤ n then some (.mem p (i + k) n) else none
  | _, _ => none

/-- Operators with two operands that are both evaluated. -/
def binary (op : Str) (a b : V) : Option V :=
  if op = str% "==" then (a.eq b).map .ofBool
  else if op = str% "!=" then (a.eq b).map fun x => .ofBool !x
  else if op = str% "+" then a.plus b
  else match a, b with
    | .int a, .int b =>
      if op = str% "-" then some (.int (a - b))
      else if op = str% "*" then some (.int (a * b))
      else if op = str% "<" then some (.ofBool (a < b))
      else if op = str% ">" then some (.ofBool (b < a))
      else if op = str% "<=" then some (.ofBool (a ≤ b))
      else if op = str% ">=" then some (.ofBool (b ≤ a))
      else if op = str% "|" then
        match a, b with
        | .ofNat a, .ofNat b => some (.int (a ||| b : Nat))
        | _, _ => none
      else none
    | _, _ => none

/-- A number, written in decimal. -/
def number (w : Str) : Option Int :=
  if w ≠ [] ∧ w.all fun c => '0' ≤ c && c ≤ '9' then some (w.foldl (fun a c => 10 * a + (c.toNat - 48 : Nat)) 0) else none

/-- Character constants. -/
def charLit : Str → Option V
  | [c] => if c = '\\' then none else some (.chr c)
  | ['\\', 'n'] => some (.chr '\n')
  | ['\\', '\\'] => some (.chr '\\')
  | _ => none

/-- String literals; only `\n` is known of the escape sequences. -/
def unescape : Str → Option Str
  | [] => some []
  | '\\' :: 'n' :: r => (unescape r).map ('\n' :: ·)
  | '\\' :: _ => none
  | c :: r => (unescape r).map (c :: ·)

/-- The string that a pointer points to. -/
def textOf (S : Sem σ) (g : σ) : V → Option Str
  | .str s => some s
  | .buf b => if S.isBuf b then some (S.getBuf b g) else none
  | _ => none

/-! ### Expressions -/

/-- What the code is executed with: the functions of the code, the calls, a limit for
    loops. -/
structure Ctx (σ : Type) where
  S : Sem σ
  isFn : Str → Bool
  call : Str → List V → M σ → R σ V
  limit : Nat

def load (S : Sem σ) (lv : Lv) (m : M σ) : R σ V :=
  match lv with
  | .here x => valueOf m (getVar x (locals m))
  | .var d x => loadVar d x m
  | .member f => if S.isBuf f then .ok (.buf f) m else .of m (S.get f m.g)
  | .elem b i => .of m (charAt (S.getBuf b m.g) i)
  | .sym i => .ok (S.getSym i m.g) m
  | .inside p path => .of m (S.getIn p path m.g)
  | .val v => .ok v m

def store (S : Sem σ) (lv : Lv) (v : V) (m : M σ) : R σ V :=
  match lv with
  | .here x => storeHere x v m
  | .var d x => storeVar d x v m
  | .member f => R.of m ((S.set f v m.g).map fun g => (v, g)) |>.bind fun r m => .ok r.1 { m with g := r.2 }
  | .elem b i => if i = 0 ∧ v = .int 0 then .ok v { m with g := S.setBuf b [] m.g } else .ub
  | .sym i => R.of m ((S.setSym i v m.g).map fun g => (v, g)) |>.bind fun r m => .ok r.1 { m with g := r.2 }
  | .inside p path => R.of m ((S.setIn p path v m.g).map fun g => (v, g)) |>.bind fun r m => .ok r.1 { m with g := r.2 }
  | .val _ => .ub

/-- A name or a number. -/
def place (K : Ctx σ) (n : Name) (m : M σ) : Option Lv :=
  match n with
  | .fixed w =>
    if (getVar w (locals m)).isSome then some (.here w)
    else match number w with
      | some k => some (.val (.int k))
      | none =>
        match K.S.const w with
        | some v => some (.val v)
        | none => if K.isFn w then some (.val (.fn w)) else if K.S.global w then some (.member w) else none
  | .glued p v => K.S.glued p v
  | .hole _ _ => none

/-- The member of something. -/
def memberOf (K : Ctx σ) (e : Expr) (f : Str) (m : M σ) : Option Lv :=
  match e with
  | .id (.fixed w) =>
    if (getVar w (locals m)).isSome then some (.here (fieldOf w f))
    else if w = K.S.data then some (.member f)
    else none
  | _ => none

/-- The member for a symbol of the structure with all data. -/
def memberFor (K : Ctx σ) (w : Str) (n : Name) (m : M σ) : Option Lv :=
  match n with
  | .glued p v => if (getVar w (locals m)).isNone ∧ w = K.S.data then K.S.glued p v else none
  | _ => none

/-- The member of a part of an object. -/
def memberIn (S : Sem σ) (lv : Lv) (n : Name) : Option Lv :=
  match lv, n with
  | .inside a path, .fixed f => some (.inside a (path ++ [.field f]))
  | .inside a path, .glued p v =>
    match S.glued p v with
    | some (.sym i) => some (.inside a (path ++ [.symbol i]))
    | _ => none
  | _, _ => none

/-- The member of what an address is the address of. -/
def arrowOf (v : V) (f : Str) : Option Lv :=
  match v with
  | .loc d x => some (.var d (fieldOf x f))
  | .lmap a n =>
    if f = str% "l_name" then some (.val (match n with
      | some s => .str s
      | none => .null))
    else if f = str% "l_addr" then some (.val (.int a))
    else none
  | .ptr p => some (.inside p [.field f])
  | _ => none

/-- The element that an address and an index are that of. -/
def indexOf (S : Sem σ) (a i : V) : Option Lv :=
  match i with
  | .int (.ofNat i) =>
    match a with
    | .str s => (charAt s i).map .val
    | .buf b => if S.isBuf b then some (.elem b i) else none
    | .ptr p => some (.inside p [.index i])
    | .mem p k n => if k + i < n then some (.inside p [.index (k + i)]) else none
    | .strs l => (l[i]?).map fun s => .val (match s with
      | some s => .str s
      | none => .null)
    | _ => none
  | _ => none

/-- What an address is the address of. -/
def derefOf (S : Sem σ) : V → Option Lv
  | .loc d x => some (.var d x)
  | v => indexOf S v (.int 0)

/-- The size of an expression. -/
def sizeOf (K : Ctx σ) (e : Expr) (m : M σ) : Option V :=
  match e with
  | .str (.fixed s) => (unescape (K.S.lit s)).map fun t => .int (t.length + 1)
  | .str (.glued s v) => if s = [] then some (.int (v.length + 1)) else none
  | .id (.fixed w) =>
    match getVar w (locals m) with
    | some (some (.arr s)) => some (.int (s.length + 1))
    | _ => none
  | _ => none

mutual
/-- The value of an expression. -/
def Expr.eval (K : Ctx σ) : Expr → M σ → R σ V
  | .id n, m => (R.of m (place K n m)).bind (load K.S)
  | .str (.fixed s), m => .of m ((unescape (K.S.lit s)).map .str)
  | .str (.glued s v), m => .of m ((unescape (K.S.lit s)).map fun t => .str (t ++ v))
  | .str (.hole _ _), _ => .ub
  | .chr (.fixed s), m => .of m (charLit s)
  | .chr _, _ => .ub
  | .cat es, m => (Expr.evalCat K es m).bind fun s m => .ok (.str s) m
  | .call (.fixed f) args, m =>
    if K.S.ignored f then .ok .void m else (Expr.evalAll K args m).bind fun vs m => K.call f vs m
  | .call _ _, _ => .ub
  | .global f args, m => (Expr.evalAll K args m).bind fun vs m => K.call f vs m
  | .field e f, m => (R.of m (memberOf K e f m)).bind (load K.S)
  | .member (.id (.fixed w)) n, m => (R.of m (memberFor K w n m)).bind (load K.S)
  | .member e n, m => (e.lval K m).bind fun lv m => (R.of m (memberIn K.S lv n)).bind (load K.S)
  | .arrow e f, m => (e.eval K m).bind fun v m => (R.of m (arrowOf v f)).bind (load K.S)
  | .index e i, m => (e.eval K m).bind fun a m => (i.eval K m).bind fun b m => (R.of m (indexOf K.S a b)).bind (load K.S)
  | .inc e, m => (e.lval K m).bind fun lv m => (load K.S lv m).bind fun v m =>
    (R.of m (v.plus (.int 1))).bind fun w m => (store K.S lv w m).bind fun _ m => .ok v m
  | .un op e, m =>
    if op = str% "&" then
      (e.lval K m).bind fun lv m =>
        match lv with
        | .here x => .ok (.loc (depth m) x) m
        | .var d x => .ok (.loc d x) m
        | _ => .ub
    else (e.eval K m).bind fun v m =>
      if op = str% "!" then .of m (v.truth.map fun b => .ofBool !b)
      else if op = str% "*" then (R.of m (derefOf K.S v)).bind (load K.S)
      else if op = str% "-" then
        match v with
        | .int n => .ok (.int (-n)) m
        | _ => .ub
      else .ub
  | .cast _ e, m => e.eval K m
  | .rcast _ e, m => e.eval K m
  | .sizeof e, m => .of m (sizeOf K e m)
  | .sizeofType ty, m => .of m ((K.S.size ty).map fun n => .int n)
  | .bin op a b, m =>
    if op = str% "&&" ∨ op = str% "||" then
      (a.eval K m).bind fun x m => (R.of m x.truth).bind fun x m =>
        if x = decide (op = str% "||") then .ok (.ofBool x) m
        else (b.eval K m).bind fun y m => (R.of m y.truth).bind fun y m => .ok (.ofBool y) m
    else (a.eval K m).bind fun x m => (b.eval K m).bind fun y m => .of m (binary op x y)
  | .cond c a b, m =>
    (c.eval K m).bind fun x m => (R.of m x.truth).bind fun x m => if x then a.eval K m else b.eval K m
  | .assign a b, m => (a.lval K m).bind fun lv m => (b.eval K m).bind fun v m => store K.S lv v m
  | .paren e, m => e.eval K m
  | .rep _ _ _ _, _ => .ub
/-- The place that an expression is that of. -/
def Expr.lval (K : Ctx σ) : Expr → M σ → R σ Lv
  | .id n, m => .of m (place K n m)
  | .field e f, m => .of m (memberOf K e f m)
  | .member (.id (.fixed w)) n, m => .of m (memberFor K w n m)
  | .member e n, m => (e.lval K m).bind fun lv m => .of m (memberIn K.S lv n)
  | .arrow e f, m => (e.eval K m).bind fun v m => .of m (arrowOf v f)
  | .index e i, m => (e.eval K m).bind fun a m => (i.eval K m).bind fun b m => .of m (indexOf K.S a b)
  | .un op e, m => if op = str% "*" then (e.eval K m).bind fun v m => .of m (derefOf K.S v) else .ub
  | .paren e, m => e.lval K m
  | _, _ => .ub
def Expr.evalAll (K : Ctx σ) : List Expr → M σ → R σ (List V)
  | [], m => .ok [] m
  | e :: r, m => (e.eval K m).bind fun v m => (Expr.evalAll K r m).bind fun vs m => .ok (v :: vs) m
/-- Adjacent string literals. -/
def Expr.evalCat (K : Ctx σ) : List Expr → M σ → R σ Str
  | [], m => .ok [] m
  | e :: r, m => (e.eval K m).bind fun v m =>
    match v with
    | .str s => (Expr.evalCat K r m).bind fun t m => .ok (s ++ t) m
    | _ => .ub
end

/-! ### Statements -/

/-- How the execution goes on. -/
inductive Flow
  | next
  | brk
  | cont
  | ret (v : V)

/-- A loop, `n` times at most. -/
def loop (c : M σ → R σ Bool) (a d : M σ → R σ Flow) : Nat → M σ → R σ Flow
  | 0, _ => .fuel
  | n + 1, m => (c m).bind fun b m =>
    if b then (a m).bind fun fl m =>
      match fl with
      | .next => (d m).bind fun _ m => loop c a d n m
      | .cont => (d m).bind fun _ m => loop c a d n m
      | .brk => .ok .next m
      | .ret v => .ok (.ret v) m
    else .ok .next m

/-- The label of a `switch` for a value. -/
def isCase (K : Ctx σ) (v : V) (m : M σ) : Stmt → Bool
  | .case (.id n) =>
    match place K n m with
    | some (.val w) => v = w
    | _ => false
  | _ => false

def isDefault : Stmt → Bool
  | .default => true
  | _ => false

/-- The result of a condition. -/
def Expr.test (K : Ctx σ) (c : Expr) (m : M σ) : R σ Bool := (c.eval K m).bind fun v m => .of m v.truth

/-- A block: what is declared in it is gone at its end. -/
def block (a : M σ → R σ Flow) (m : M σ) : R σ Flow := (a m).bind fun fl m' => .ok fl (leave (locals m).length m')

mutual
def Stmt.exec (K : Ctx σ) : Stmt → M σ → R σ Flow
  | .expr e, m => (e.eval K m).bind fun _ m => .ok .next m
  | .ret none, m => .ok (.ret .void) m
  | .ret (some e), m => (e.eval K m).bind fun v m => .ok (.ret v) m
  | .if1 c a, m => (c.test K m).bind fun b m => if b then block (Stmt.execAll K a) m else .ok .next m
  | .if2 c a b, m => (c.test K m).bind fun x m => if x then block (Stmt.execAll K a) m else block (Stmt.execAll K b) m
  | .elif c a b, m => (c.test K m).bind fun x m => if x then block (Stmt.execAll K a) m else block (Stmt.execAll K b) m
  | .while c a, m => loop (c.test K) (block (Stmt.execAll K a)) (fun m => .ok .next m) K.limit m
  | .for _ x e c d a, m =>
    block (fun m => (e.eval K m).bind fun v m => (declare [(x, some v)] m).bind fun _ m =>
      loop (c.test K) (block (Stmt.execAll K a)) (fun m => (d.eval K m).bind fun _ m => .ok .next m) K.limit m) m
  | .decl ty x arr init more, m =>
    if more = [] then
      match init with
      | none => (declare ((x, none) :: (K.S.fields ty).map fun f => (fieldOf x f, none)) m).bind fun _ m => .ok .next m
      | some e => (e.eval K m).bind fun v m =>
        match arr, v with
        | [], v => (declare [(x, some v)] m).bind fun _ m => .ok .next m
        | _, .str s => (declare [(x, some (.arr s))] m).bind fun _ m => .ok .next m
        | _, _ => .ub
    else .ub
  | .switch e body, m => (e.eval K m).bind fun v m =>
    (block (fun m => ((Stmt.execFrom K (isCase K v m) body m).getD ((Stmt.execFrom K isDefault body m).getD (.ok .next m)))) m).bind fun fl m =>
      match fl with
      | .brk => .ok .next m
      | fl => .ok fl m
  | .case _, m => .ok .next m
  | .default, m => .ok .next m
  | .brk, m => .ok .brk m
  | .cont, m => .ok .cont m
  | .throw x e, m => (e.eval K m).bind fun v m =>
    match v with
    | .str s => .thrown x s m
    | _ => .ub
  | .lambda x _ _ _ _, m => (declare [(x, some (.fn x))] m).bind fun _ m => .ok .next m
  | .rep _ _, _ => .ub
def Stmt.execAll (K : Ctx σ) : List Stmt → M σ → R σ Flow
  | [], m => .ok .next m
  | s :: r, m => (s.exec K m).bind fun fl m =>
    match fl with
    | .next => Stmt.execAll K r m
    | fl => .ok fl m
/-- The statements behind a label. -/
def Stmt.execFrom (K : Ctx σ) (here : Stmt → Bool) : List Stmt → M σ → Option (R σ Flow)
  | [], _ => none
  | s :: r, m => if here s then some (Stmt.execAll K r m) else Stmt.execFrom K here r m
end

/-! ### Functions -/

/-- The function of a name. -/
def lookup (f : Str) : List Top → Option Fn
  | [] => none
  | .fn x :: r => if x.name = f then some x else lookup f r
  | .decl _ :: r => lookup f r
  | .struct _ _ _ :: r => lookup f r
  | .decls _ :: r => lookup f r
  | .throwing x :: r => if x.name = f then some x else lookup f r
  | .space _ :: r => lookup f r
  | .spaceEnd :: r => lookup f r
  | .exception _ :: r => lookup f r

/-- The functions without captures that are declared in a function. -/
def lambdas : List Stmt → List Top
  | [] => []
  | .lambda x pty p _ body :: r => .fn ⟨[], x, [(pty, p)], body⟩ :: lambdas r
  | _ :: r => lambdas r

/-- A program and the functions without captures that are declared in its functions: they
    are as good as functions of the program, if their names are not used otherwise. -/
def lift : List Top → List Top
  | [] => []
  | .fn f :: r => .fn f :: (lambdas f.body ++ lift r)
  | .throwing f :: r => .throwing f :: (lambdas f.body ++ lift r)
  | t :: r => t :: lift r

/-- The end of a call. -/
def return_ (fl : Flow) (m : M σ) : R σ V :=
  match fl with
  | .next => .ok .void { m with frames := m.frames.tail }
  | .ret v => .ok v { m with frames := m.frames.tail }
  | .brk => .ub
  | .cont => .ub

/-- The end of a call by an exception. -/
def unwind {α : Type} : R σ α → R σ α
  | .thrown x t m => .thrown x t { m with frames := m.frames.tail }
  | r => r

def Fn.call (K : Ctx σ) (f : Fn) (args : List V) (m : M σ) : R σ V :=
  if args.length = f.params.length then
    unwind ((Stmt.execAll K f.body { m with frames := ⟨f.name, (f.params.zip args).map fun p => (p.1.2, some p.2)⟩ :: m.frames }).bind return_)
  else .ub

/-- The call of a function of the system or of the code, with at most `n` calls inside of
    each other. -/
def link (S : Sem σ) (prog : List Top) : Nat → Str → List V → M σ → R σ V
  | 0, _, _, _ => .fuel
  | n + 1, f, args, m =>
    match S.system f with
    | some r => r args m
    | none =>
      match lookup f prog with
      | some x => x.call ⟨S, fun w => (lookup w prog).isSome, link S prog n, n⟩ args m
      | none => .ub

end Gdo.Cc
