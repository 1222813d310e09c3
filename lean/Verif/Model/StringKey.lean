/-!
Equality of strings, decided by comparing numbers: the kernel of Lean compares numbers much faster than the bytes of strings.  This
only makes the evaluation of the tables of `Model/Wiring.lean` faster.
-/

namespace Verif.Wiring

/-- number of a list of bytes, in base 257 -/
def keyL : List UInt8 → Nat
  | [] => 0
  | b :: l => Nat.succ (Nat.add (Nat.mul (keyL l) 257) b.toNat)

/-- number of a string -/
def key (s : String) : Nat := keyL s.toByteArray.data.toList

theorem keyL_inj : ∀ a b : List UInt8, keyL a = keyL b → a = b
  | [], [], _ => rfl
  | [], y :: b, h => by
    have : 0 = Nat.succ (Nat.add (Nat.mul (keyL b) 257) y.toNat) := h
    omega
  | x :: a, [], h => by
    have : Nat.succ (Nat.add (Nat.mul (keyL a) 257) x.toNat) = 0 := h
    omega
  | x :: a, y :: b, h => by
    have : keyL a * 257 + x.toNat + 1 = keyL b * 257 + y.toNat + 1 := h
    have hx : x.toNat < 256 := x.toNat_lt
    have hy : y.toNat < 256 := y.toNat_lt
    have h1 : x.toNat = y.toNat := by omega
    have h2 : keyL a = keyL b := by omega
    rw [UInt8.toNat_inj.1 h1, keyL_inj a b h2]

theorem key_inj {a b : String} (h : Nat.beq (key a) (key b) = true) : a = b := by
  have h := Nat.eq_of_beq_eq_true h
  rcases a with ⟨⟨⟨a⟩⟩, ha⟩
  rcases b with ⟨⟨⟨b⟩⟩, hb⟩
  have : a = b := keyL_inj a b h
  subst this
  rfl

theorem key_ne {a b : String} (h : Nat.beq (key a) (key b) = false) : a ≠ b := by
  intro e
  subst e
  rw [Nat.beq_refl] at h
  cases h

/-- equality of strings by their numbers -/
abbrev fastString : DecidableEq String := fun a b =>
  match h : Nat.beq (key a) (key b) with
  | false => isFalse (key_ne h)
  | true => isTrue (key_inj h)

end Verif.Wiring
