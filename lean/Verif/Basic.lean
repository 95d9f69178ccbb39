/-! Shared vocabulary of the model: results, the mutable-state-with-error monad, bytes and bits.

Nothing here models code of /repo; it models the Rust language: `Result`, panics, `&mut`. -/
namespace Verif

/-- `Vec<u8>` and `&[u8]`, as in /repo/huffman/src/decoder/mod.rs:102-103 (all functions of the three crates work on them). -/
abbrev Bytes := List UInt8

/-- Outcome of a Rust call: `Ok`, `Err`, a panic (index out of bounds, arithmetic overflow with overflow
checks on, `unwrap` of `None`), or `hang`: the loop did not finish within the fuel given to the model.
Models the language, not a function of /repo; used for every function, e.g. /repo/huffman/src/decoder/mod.rs:101-134. -/
inductive Res (ε α : Type) where
  | ok (a : α)
  | err (e : ε)
  | panic
  | hang
  deriving Repr, DecidableEq

namespace Res
variable {ε ε' α β : Type}

/-- `?` and the sequence of statements: the first `Err` or panic ends the call (e.g. /repo/hpack/src/decoder/mod.rs:106-128). -/
def bind (x : Res ε α) (f : α → Res ε β) : Res ε β :=
  match x with
  | ok a => f a
  | err e => err e
  | panic => panic
  | hang => hang

/-- `From` conversion of the error by the `?` operator.
E.g. /repo/hpack/src/decoder/error.rs and /repo/hpack/src/encoder/error.rs (`impl From`). -/
def mapErr (f : ε → ε') (x : Res ε α) : Res ε' α :=
  match x with
  | ok a => ok a
  | err e => err (f e)
  | panic => panic
  | hang => hang

/-- `Result::is_ok` of the standard library (no line of /repo; used in examples). -/
def isOk : Res ε α → Bool
  | ok _ => true
  | _ => false

instance : Monad (Res ε) where
  pure := ok
  bind := bind

@[simp] theorem bind_ok (a : α) (f : α → Res ε β) : (Res.ok a >>= f) = f a := rfl
@[simp] theorem bind_err (e : ε) (f : α → Res ε β) : (Res.err e >>= f) = .err e := rfl
@[simp] theorem bind_panic (f : α → Res ε β) : ((Res.panic : Res ε α) >>= f) = .panic := rfl
@[simp] theorem bind_hang (f : α → Res ε β) : ((Res.hang : Res ε α) >>= f) = .hang := rfl
@[simp] theorem pure_eq (a : α) : (pure a : Res ε α) = .ok a := rfl

end Res

/-- A Rust function on `&mut` state `σ` that returns `Result<α, ε>`. The state comes back also when the
result is an error, so that what a failed call has already changed stays visible.
Models `&mut` parameters such as `buf` and `dst` of /repo/hpack/src/decoder/mod.rs:100-104. -/
def M (σ ε α : Type) := σ → Res ε α × σ

namespace M
variable {σ ε α β : Type}

instance : Monad (M σ ε) where
  pure a := fun s => (.ok a, s)
  bind x f := fun s =>
    match x s with
    | (.ok a, s') => f a s'
    | (.err e, s') => (.err e, s')
    | (.panic, s') => (.panic, s')
    | (.hang, s') => (.hang, s')

/-- Read the state. (Language, no line of /repo.) -/
def get : M σ ε σ := fun s => (.ok s, s)
/-- Change the state. (Language, no line of /repo.) -/
def modify (f : σ → σ) : M σ ε Unit := fun s => (.ok (), f s)
/-- `return Err(e)`. (Language, no line of /repo.) -/
def throw (e : ε) : M σ ε α := fun s => (.err e, s)
/-- A panic. (Language, no line of /repo.) -/
def panic : M σ ε α := fun s => (.panic, s)
/-- A loop out of fuel. (No line of /repo: an artefact of the model, proved not to occur.) -/
def hang : M σ ε α := fun s => (.hang, s)
/-- A call that does not touch the state. (Language, no line of /repo.) -/
def lift (x : Res ε α) : M σ ε α := fun s => (x, s)

@[simp] theorem pure_apply (a : α) (s : σ) : (pure a : M σ ε α) s = (.ok a, s) := rfl
@[simp] theorem get_apply (s : σ) : (get : M σ ε σ) s = (.ok s, s) := rfl
@[simp] theorem modify_apply (f : σ → σ) (s : σ) : (modify f : M σ ε Unit) s = (.ok (), f s) := rfl
@[simp] theorem throw_apply (e : ε) (s : σ) : (throw e : M σ ε α) s = (.err e, s) := rfl
@[simp] theorem panic_apply (s : σ) : (panic : M σ ε α) s = (.panic, s) := rfl
@[simp] theorem hang_apply (s : σ) : (hang : M σ ε α) s = (.hang, s) := rfl
@[simp] theorem lift_apply (x : Res ε α) (s : σ) : (lift x : M σ ε α) s = (x, s) := rfl

theorem bind_apply (x : M σ ε α) (f : α → M σ ε β) (s : σ) :
    (x >>= f) s = match x s with
      | (.ok a, s') => f a s'
      | (.err e, s') => (.err e, s')
      | (.panic, s') => (.panic, s')
      | (.hang, s') => (.hang, s') := rfl

theorem bind_of_ok {x : M σ ε α} {f : α → M σ ε β} {s s' : σ} {a : α} (h : x s = (.ok a, s')) :
    (x >>= f) s = f a s' := by rw [bind_apply, h]
theorem bind_of_err {x : M σ ε α} {f : α → M σ ε β} {s s' : σ} {e : ε} (h : x s = (.err e, s')) :
    (x >>= f) s = (.err e, s') := by rw [bind_apply, h]

@[simp] theorem ite_apply (c : Prop) [Decidable c] (x y : M σ ε α) (s : σ) :
    (if c then x else y) s = if c then x s else y s := by split <;> rfl

end M

/-- Shift left on `usize` (64 bits): panics when the amount is 64 or more (overflow checks), drops high bits.
Used at /repo/huffman/src/decoder/reader.rs:45, 70, 84, 108, 111. -/
def shl64 {σ ε : Type} (a k : Nat) : M σ ε Nat :=
  if k < 64 then pure ((a * 2 ^ k) % 2 ^ 64) else M.panic
/-- Shift right on `usize`: panics when the amount is 64 or more.
Used at /repo/huffman/src/decoder/reader.rs:81, 105, 108, 112. -/
def shr64 {σ ε : Type} (a k : Nat) : M σ ε Nat :=
  if k < 64 then pure (a / 2 ^ k) else M.panic
/-- `a - b` on an unsigned type: panics when `b > a` (overflow checks).
Used at /repo/huffman/src/decoder/reader.rs:66-115 and /repo/huffman/src/encoder/mod.rs:131-143. -/
def subU {σ ε : Type} (a b : Nat) : M σ ε Nat :=
  if b ≤ a then pure (a - b) else M.panic

end Verif
