/-
  Shared vocabulary of the kryptos model.

  * `Byte`, `W16`, `W32`, `W64`  : kryptos_u8_t / u16 / u32 / u64 (src/kryptos_types.h:1-120).
  * `Out α`                      : outcome of a C computation, with undefined
                                   behaviour as a distinct, absorbing outcome.
  * `TaskResult`, `Action`, `Mode` : the enumerations of src/kryptos_types.h.
-/
namespace Kryptos

/-- `kryptos_u8_t`. -/
abbrev Byte := BitVec 8
/-- `kryptos_u16_t`. -/
abbrev W16 := BitVec 16
/-- `kryptos_u32_t`. -/
abbrev W32 := BitVec 32
/-- `kryptos_u64_t`. -/
abbrev W64 := BitVec 64

/-- A byte buffer together with its size (the list length). -/
abbrev Bytes := List Byte

/-- Outcome of a C computation: a value, or undefined behaviour (out-of-bounds
access, NULL dereference, division by zero, wrapped size used as a length...). -/
inductive Out (α : Type) where
  | ok (a : α)
  | ub
  deriving Repr, DecidableEq

namespace Out

/-- Sequencing: undefined behaviour is absorbing. -/
def bind {α β : Type} (x : Out α) (f : α → Out β) : Out β :=
  match x with
  | ok a => f a
  | ub => ub

instance : Monad Out where
  pure := ok
  bind := bind

@[simp] theorem bind_ok {α β : Type} (a : α) (f : α → Out β) : (Out.ok a >>= f) = f a := rfl
@[simp] theorem bind_ub {α β : Type} (f : α → Out β) : ((Out.ub : Out α) >>= f) = Out.ub := rfl
@[simp] theorem pure_eq {α : Type} (a : α) : (pure a : Out α) = Out.ok a := rfl

instance : LawfulMonad Out := LawfulMonad.mk'
  (id_map := fun x => by cases x <;> rfl)
  (pure_bind := fun _ _ => rfl)
  (bind_assoc := fun x _ _ => by cases x <;> rfl)

/-- Lift an optional value: `none` is an out-of-bounds access. -/
def ofOption {α : Type} : Option α → Out α
  | some a => ok a
  | none => ub

@[simp] theorem ofOption_some {α : Type} (a : α) : ofOption (some a) = ok a := rfl
@[simp] theorem ofOption_none {α : Type} : ofOption (none : Option α) = ub := rfl

end Out

/-- Checked array/buffer read `l[i]`. -/
def rd {α : Type} (l : List α) (i : Nat) : Out α := Out.ofOption l[i]?

theorem rd_eq_ok {α : Type} {l : List α} {i : Nat} (h : i < l.length) : rd l i = Out.ok l[i] := by
  simp [rd, List.getElem?_eq_getElem h]

theorem rd_eq_ub {α : Type} {l : List α} {i : Nat} (h : l.length ≤ i) : rd l i = Out.ub := by
  simp [rd, List.getElem?_eq_none h]

/-- Checked write of one element at index `i`. -/
def wr {α : Type} (l : List α) (i : Nat) (a : α) : Out (List α) :=
  if i < l.length then Out.ok (l.set i a) else Out.ub

/-- A C loop `for (i = t; i < t + n; i++) body`. -/
def forLoop {σ : Type} (body : Nat → σ → Out σ) : Nat → Nat → σ → Out σ
  | 0, _, s => .ok s
  | n + 1, t, s => do
    let s ← body t s
    forLoop body n (t + 1) s

theorem forLoop_eq {σ : Type} (body : Nat → σ → Out σ) (f : Nat → σ → σ) :
    ∀ (n t : Nat) (s : σ), (∀ i s, t ≤ i → i < t + n → body i s = .ok (f i s)) →
      forLoop body n t s = .ok ((List.range' t n).foldl (fun s i => f i s) s)
  | 0, _, _, _ => rfl
  | n + 1, t, s, h => by
    rw [forLoop, h t s (Nat.le_refl t) (by omega), Out.bind_ok, List.range'_succ, List.foldl_cons]
    exact forLoop_eq body f n (t + 1) (f t s) fun i s h1 h2 => h i s (by omega) (by omega)

theorem forLoop_zipIdx {σ κ : Type} (body : Nat → σ → Out σ) (f : κ → Nat → σ → σ) :
    ∀ (l : List κ) (t : Nat) (s : σ),
      (∀ i s (hi : i < l.length), body (t + i) s = .ok (f l[i] (t + i) s)) →
      forLoop body l.length t s = .ok ((l.zipIdx t).foldl (fun s p => f p.1 p.2 s) s)
  | [], _, _, _ => rfl
  | k :: l, t, s, h => by
    have h0 := h 0 s (by simp)
    simp only [Nat.add_zero, List.getElem_cons_zero] at h0
    rw [List.length_cons, forLoop, h0, Out.bind_ok, List.zipIdx_cons, List.foldl_cons]
    apply forLoop_zipIdx body f l (t + 1) (f k t s)
    intro i s hi
    have := h (i + 1) s (by simp; omega)
    simpa [Nat.add_assoc, Nat.add_comm 1 i] using this

theorem mapM_ok {α β : Type} (f : α → Out β) (g : α → β) : ∀ (l : List α), (∀ x ∈ l, f x = .ok (g x)) →
    l.mapM f = .ok (l.map g)
  | [], _ => rfl
  | x :: l, h => by
    rw [List.mapM_cons, h x (by simp), Out.bind_ok, mapM_ok f g l (fun y hy => h y (by simp [hy])), Out.bind_ok]
    rfl

/-- `kryptos_task_result_t` (src/kryptos_types.h:218-232); `nr` is the value of a fresh task. -/
inductive TaskResult where
  | success | keyError | processError | invalidParams | invalidCipher | hmacError
  | gmacError | invalidSignature | noSupport | poly1305Error | siphashError | invalidToken
  | nr
  deriving Repr, DecidableEq

/-- `kryptos_action_t` (src/kryptos_types.h:207-216). -/
inductive Action where
  | encrypt | decrypt | encode | decode | encryptWithoutRandomPad | generateToken | validateToken
  | nr
  deriving Repr, DecidableEq

/-- `kryptos_cipher_mode_t` (src/kryptos_types.h:137-144). -/
inductive Mode where
  | ecb | cbc | ofb | ctr | gcm | nr
  deriving Repr, DecidableEq

/-- ASCII bytes of a string literal (used to write C string literals). -/
def ascii (s : String) : Bytes := s.toList.map fun c => BitVec.ofNat 8 c.toNat

end Kryptos
