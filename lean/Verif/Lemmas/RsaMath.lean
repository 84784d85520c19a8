import Verif.Spec.Issuing
import Mathlib.FieldTheory.Finite.Basic
import Mathlib.NumberTheory.LucasPrimality
import Mathlib.Tactic.NormNum.Prime
/-!
# RSA: raising to the public exponent undoes raising to the private one
-/

namespace Tacho
open Spec

theorem pow_mod_prime {p k : Nat} (hp : p.Prime) (hk : k ≡ 1 [MOD p - 1]) (h0 : 0 < k) (m : Nat) :
    m ^ k ≡ m [MOD p] := by
  haveI := Fact.mk hp
  rw [← ZMod.natCast_eq_natCast_iff]
  push_cast
  by_cases hm : (m : ZMod p) = 0
  · rw [hm, zero_pow (by omega)]
  · have h1 : 1 ≤ k := h0
    obtain ⟨t, ht⟩ := (Nat.modEq_iff_dvd' h1).mp hk.symm
    have : k = (p - 1) * t + 1 := by omega
    rw [this, pow_succ, pow_mul, ZMod.pow_card_sub_one_eq_one hm, one_pow, one_mul]

theorem keyPair_pos {n e d : Nat} (h : KeyPair n e d) : 0 < e * d := by
  obtain ⟨p, q, hp, hq, hne, rfl, hed⟩ := h
  rcases Nat.eq_zero_or_pos (e * d) with h0 | h0
  · rw [h0] at hed
    have h1 : Nat.lcm (p - 1) (q - 1) ∣ 1 := (Nat.modEq_zero_iff_dvd.mp hed.symm)
    have h1 := Nat.dvd_one.mp h1
    have a := Nat.dvd_one.mp (h1 ▸ Nat.dvd_lcm_left (p - 1) (q - 1))
    have b := Nat.dvd_one.mp (h1 ▸ Nat.dvd_lcm_right (p - 1) (q - 1))
    omega
  · exact h0

/-- The two exponents together are the identity modulo `n`, also for numbers that are not coprime to `n`. -/
theorem keyPair_pow {n e d : Nat} (h : KeyPair n e d) (m : Nat) : m ^ (e * d) ≡ m [MOD n] := by
  have h0 := keyPair_pos h
  obtain ⟨p, q, hp, hq, hne, rfl, hed⟩ := h
  exact (Nat.modEq_and_modEq_iff_modEq_mul ((Nat.coprime_primes hp hq).mpr hne)).mp
    ⟨pow_mod_prime hp (hed.of_dvd (Nat.dvd_lcm_left _ _)) h0 m, pow_mod_prime hq (hed.of_dvd (Nat.dvd_lcm_right _ _)) h0 m⟩

/-- Opening a signature gives the message exactly if the number is, modulo `n`, the signature of the message. -/
theorem keyPair_open_iff {n e d : Nat} (h : KeyPair n e d) (s m : Nat) (hm : m < n) :
    s ^ e % n = m ↔ s % n = m ^ d % n := by
  constructor
  · intro hs
    have h1 : s ^ e ≡ m [MOD n] := by rw [← hs]; exact (Nat.mod_modEq _ _).symm
    have h2 : s ^ (e * d) ≡ m ^ d [MOD n] := by rw [pow_mul]; exact h1.pow d
    exact (keyPair_pow h s).symm.trans h2
  · intro hs
    have h1 : s ≡ m ^ d [MOD n] := hs
    have h2 : s ^ e ≡ m ^ (e * d) [MOD n] := by rw [Nat.mul_comm, pow_mul]; exact h1.pow e
    have h3 : s ^ e % n = m % n := h2.trans (keyPair_pow h m)
    rw [h3, Nat.mod_eq_of_lt hm]

/-! ## A key pair of 1024 bits -/

/-- Square and multiply; `bits` are those of the exponent, most significant first. -/
def powBits (n a : Nat) : List Bool → Nat → Nat
  | [], acc => acc
  | b :: bs, acc => powBits n a bs (if b then acc * acc % n * a % n else acc * acc % n)

/-- The exponent the bits stand for. -/
def bitsVal : List Bool → Nat → Nat
  | [], v => v
  | b :: bs, v => bitsVal bs (2 * v + b.toNat)

theorem powBits_spec (n a : Nat) (bs : List Bool) : ∀ acc v, acc ≡ a ^ v [MOD n] → powBits n a bs acc ≡ a ^ bitsVal bs v [MOD n] := by
  induction bs with
  | nil => intro acc v h; exact h
  | cons b bs ih =>
    intro acc v h
    have hsq : acc * acc % n ≡ a ^ (2 * v) [MOD n] := by
      rw [Nat.two_mul, pow_add]; exact (Nat.mod_modEq _ _).trans (h.mul h)
    cases b with
    | false => exact ih _ (2 * v) hsq
    | true =>
      refine ih _ (2 * v + 1) ?_
      rw [pow_succ]
      exact (Nat.mod_modEq _ _).trans (hsq.mul_right a)

/-- The bits of `n`, most significant first. -/
def bitsOf (n : Nat) : (k : Nat) → List Bool
  | 0 => []
  | k + 1 => n.testBit k :: bitsOf n k

/-- `a ^ x mod n` by square and multiply, for exponents of at most 528 bits. -/
def fastPow (n a x : Nat) : Nat := powBits n a (bitsOf x 528) 1

theorem fastPow_spec (n a x : Nat) (h : bitsVal (bitsOf x 528) 0 = x) : fastPow n a x ≡ a ^ x [MOD n] := by
  have := powBits_spec n a (bitsOf x 528) 1 0 (by rw [pow_zero])
  rw [h] at this
  exact this

/-- Lucas' criterion for numbers of the form `k * 2 ^ m + 1` with a prime `k`. -/
theorem prime_of_pow (p k m a : Nat) (hk : k.Prime) (hp : p - 1 = k * 2 ^ m) (h1 : 1 < p)
    (b1 : bitsVal (bitsOf (p - 1) 528) 0 = p - 1) (b2 : bitsVal (bitsOf ((p - 1) / 2) 528) 0 = (p - 1) / 2)
    (b3 : bitsVal (bitsOf ((p - 1) / k) 528) 0 = (p - 1) / k)
    (e1 : fastPow p a (p - 1) % p = 1) (e2 : fastPow p a ((p - 1) / 2) % p ≠ 1) (e3 : fastPow p a ((p - 1) / k) % p ≠ 1) :
    p.Prime := by
  have conv : ∀ x, bitsVal (bitsOf x 528) 0 = x → ((a : ZMod p) ^ x = 1 ↔ fastPow p a x % p = 1) := by
    intro x hx
    have h2 : fastPow p a x % p = a ^ x % p := fastPow_spec p a x hx
    rw [h2]
    have h3 : ((a ^ x : Nat) : ZMod p) = ((1 : Nat) : ZMod p) ↔ a ^ x % p = 1 % p := ZMod.natCast_eq_natCast_iff' _ _ _
    rw [Nat.mod_eq_of_lt h1] at h3
    rw [← h3]; push_cast; exact Iff.rfl
  refine lucas_primality p (a : ZMod p) ((conv _ b1).mpr e1) ?_
  intro q hq hd
  rw [hp] at hd
  rcases (Nat.Prime.dvd_mul hq).mp hd with h | h
  · rw [(Nat.prime_dvd_prime_iff_eq hq hk).mp h]
    exact fun hc => e3 ((conv _ b3).mp hc)
  · rw [(Nat.prime_dvd_prime_iff_eq hq Nat.prime_two).mp (hq.dvd_of_dvd_pow h)]
    exact fun hc => e2 ((conv _ b2).mp hc)

/-- Two primes, a public and a private exponent. -/
def sampleP : Nat := 2441 * 2 ^ 499 + 1
def sampleQ : Nat := 1783 * 2 ^ 502 + 1
def sampleD : Nat := 18429935250930087755928694308994178344203850905079941176382357074807125291997422124817233387833520779923245840579508853316707989187278179000260884717872545793

theorem sampleP_prime : sampleP.Prime :=
  prime_of_pow sampleP 2441 499 3 (by norm_num) (by decide +kernel) (by decide +kernel) (by decide +kernel) (by decide +kernel)
    (by decide +kernel) (by decide +kernel) (by decide +kernel) (by decide +kernel)

theorem sampleQ_prime : sampleQ.Prime :=
  prime_of_pow sampleQ 1783 502 3 (by norm_num) (by decide +kernel) (by decide +kernel) (by decide +kernel) (by decide +kernel)
    (by decide +kernel) (by decide +kernel) (by decide +kernel) (by decide +kernel)

/-- A key pair of 1024 bits with the public exponent 65537. -/
theorem sample_keyPair : KeyPair (sampleP * sampleQ) 65537 sampleD ∧ Size1024 (sampleP * sampleQ) := by
  refine ⟨⟨sampleP, sampleQ, sampleP_prime, sampleQ_prime, by decide +kernel, rfl, ?_⟩, ?_⟩
  · show 65537 * sampleD % _ = 1 % _
    decide +kernel
  · exact ⟨by decide +kernel, by decide +kernel⟩

end Tacho
