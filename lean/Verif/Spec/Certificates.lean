import Verif.Model.Security
import Mathlib.Data.List.Forall2
/-!
# What the certificate formats and checks mean

Independent of the parsers: number notations, DER items and the ISO 9796-2 message, stated on
concatenations of byte strings.
-/

namespace Tacho.Spec

/-- `s` is the usual decimal notation of `n`: digits only, value `n`, no superfluous leading zero. -/
def IsDecimal (s : Bytes) (n : Nat) : Prop :=
  s ≠ [] ∧ (∀ b ∈ s, 48 ≤ b.toNat ∧ b.toNat ≤ 57) ∧
  s.foldl (fun a b => a * 10 + (b.toNat - 48)) 0 = n ∧ (s.head? = some 48 → s = [48])

/-- The value of a base-128 number, most significant group first, high bits ignored. -/
def septets (ds : Bytes) : Nat := ds.foldl (fun a b => a * 128 + b.toNat % 128) 0

/-- `ds` is the minimal base-128 notation of `v` within Go's limits (at most five bytes, at most
2^31 - 1): every byte but the last has its high bit set and the first is not 0x80. -/
def Base128 (ds : Bytes) (v : Nat) : Prop :=
  (∃ init last, ds = init ++ [last] ∧ (∀ b ∈ init, 128 ≤ b.toNat) ∧ last.toNat < 128) ∧
  ds.length ≤ 5 ∧ ds.head? ≠ some 0x80 ∧ septets ds = v ∧ v ≤ 2147483647

/-- Identifier octets of any class and tag. -/
def Identifier (h : Bytes) : Prop :=
  (∃ b : UInt8, h = [b] ∧ b.toNat % 32 ≠ 31) ∨
  (∃ (b : UInt8) (ds : Bytes) (t : Nat), h = b :: ds ∧ b.toNat % 32 = 31 ∧ Base128 ds t ∧ 31 ≤ t)

/-- DER length octets announcing `n` bytes: one byte below 128, else a count byte and the minimal
big-endian number. -/
def LengthOctets (l : Bytes) (n : Nat) : Prop :=
  (∃ b : UInt8, l = [b] ∧ b.toNat < 128 ∧ n = b.toNat) ∨
  (∃ (c : UInt8) (ds : Bytes), l = c :: ds ∧ c.toNat = 128 + ds.length ∧ ds ≠ [] ∧
    ds.head? ≠ some 0 ∧ beNat ds = n ∧ 128 ≤ n ∧ n < 2 ^ 31)

/-- `item` is one complete DER value of any tag with the given content. -/
def Item (item content : Bytes) : Prop :=
  ∃ i l, item = i ++ l ++ content ∧ Identifier i ∧ LengthOctets l content.length

/-- The content octets of an object identifier. -/
def OidOctets (content : Bytes) (ids : List Nat) : Prop :=
  ∃ (ds : Bytes) (v : Nat) (rest : List (Bytes × Nat)),
    content = ds ++ (rest.map Prod.fst).flatten ∧ Base128 ds v ∧ (∀ p ∈ rest, Base128 p.1 p.2) ∧
    ids = (if v < 80 then [v / 40, v % 40] else [2, v - 80]) ++ rest.map Prod.snd

/-- Dotted notation of an object identifier. -/
def IsDotted (s : Bytes) (ids : List Nat) : Prop :=
  ∃ parts : List Bytes, List.Forall₂ IsDecimal parts ids ∧ s = [0x2E].intercalate parts

/-- The supported curves with the object identifiers the regulation and RFC 5639 / SEC 2 give them. -/
def curves : List (List Nat × Curve) :=
  [([1, 3, 36, 3, 3, 2, 8, 1, 1, 7], .brainpoolP256r1), ([1, 3, 36, 3, 3, 2, 8, 1, 1, 11], .brainpoolP384r1),
   ([1, 3, 36, 3, 3, 2, 8, 1, 1, 13], .brainpoolP512r1), ([1, 2, 840, 10045, 3, 1, 7], .p256),
   ([1, 3, 132, 0, 34], .p384), ([1, 3, 132, 0, 35], .p521)]

/-- The digest used with each curve: the SHA-2 function of the curve's size. -/
def digest [Crypto] : Curve → Bytes → Bytes
  | .brainpoolP256r1 => Crypto.sha256 | .p256 => Crypto.sha256
  | .brainpoolP384r1 => Crypto.sha384 | .p384 => Crypto.sha384
  | .brainpoolP512r1 => Crypto.sha512 | .p521 => Crypto.sha512

/-- A certificate of 194 bytes is the 128 byte signature, the 58 byte non-recoverable part and the
8 byte authority reference; the content `c` (164 bytes) is certified by the public key `(n, e)` if the
signature opens to `6A ‖ recoverable part ‖ SHA-1(c) ‖ BC`. `% 0` is no reduction, as in math/big. -/
def Iso9796 [Crypto] (n e : Nat) (raw c car : Bytes) : Prop :=
  ∃ sig cr cn, raw = sig ++ cn ++ car ∧ sig.length = 128 ∧ cn.length = 58 ∧ car.length = 8 ∧
    c = cr ++ cn ∧ cr.length = 106 ∧
    beNat sig ^ e % n = beNat ([0x6A] ++ cr ++ Crypto.sha1 c ++ [0xBC])

/-- The fields of the certificate content, in order. -/
structure Content where
  profile : UInt8
  car : Bytes
  cha : Bytes
  eov : Bytes
  chr : Bytes
  modulus : Bytes
  exponent : Bytes

/-- Their layout. -/
def Content.Layout (f : Content) (c : Bytes) : Prop :=
  c = [f.profile] ++ f.car ++ f.cha ++ f.eov ++ f.chr ++ f.modulus ++ f.exponent ∧
  f.car.length = 8 ∧ f.cha.length = 7 ∧ f.eov.length = 4 ∧ f.chr.length = 8 ∧
  f.modulus.length = 128 ∧ f.exponent.length = 8

/-- The values in a second generation certificate. -/
structure EccFields where
  profile : UInt8
  car : Bytes
  cha : Bytes
  ids : List Nat
  x : Bytes
  y : Bytes
  chr : Bytes
  effective : Bytes
  expiration : Bytes
  r : Bytes
  s : Bytes

/-- Where they are: nested DER items in a fixed order, whatever their tags; only the object identifier
must carry its tag. Each level may end with bytes nobody reads (`t0` to `t3`). `full` is the body item
itself, the part that is signed. -/
def EccFields.Layout (f : EccFields) (d full : Bytes) : Prop :=
  ∃ iOuter iCpi iCar iCha iKey l oid iPoint iChr iEff iExp iSig t0 t1 t2 t3,
    d = iOuter ++ t0 ∧
    Item iOuter (full ++ (iSig ++ t1)) ∧
    Item full (iCpi ++ (iCar ++ (iCha ++ (iKey ++ (iChr ++ (iEff ++ (iExp ++ t2))))))) ∧
    Item iCpi [f.profile] ∧
    Item iCar f.car ∧ f.car.length = 8 ∧
    Item iCha f.cha ∧ f.cha.length = 7 ∧
    Item iKey (0x06 :: l ++ oid ++ (iPoint ++ t3)) ∧ LengthOctets l oid.length ∧ OidOctets oid f.ids ∧
    Item iPoint (0x04 :: f.x ++ f.y) ∧ f.x.length = f.y.length ∧
    Item iChr f.chr ∧ f.chr.length = 8 ∧
    Item iEff f.effective ∧ f.effective.length = 4 ∧
    Item iExp f.expiration ∧ f.expiration.length = 4 ∧
    Item iSig (f.r ++ f.s) ∧ f.r.length = f.s.length

/-- The message that reports them for the input `d`. -/
def EccFields.Reported (f : EccFields) (d : Bytes) (c : EccCert) : Prop :=
  c.profile = f.profile.toNat ∧ IsDecimal c.car (beNat f.car) ∧ c.cha = f.cha ∧
  (∃ oid, IsDotted oid f.ids ∧ c.publicKey = some ⟨oid, f.x, f.y⟩) ∧
  IsDecimal c.chr (beNat f.chr) ∧ c.effective = some ⟨beNat f.effective, 0⟩ ∧
  c.expiration = some ⟨beNat f.expiration, 0⟩ ∧ c.signature = some ⟨f.r, f.s⟩ ∧ c.raw = d ∧
  c.valid = false

/-- The object identifier string names the curve: its dotted notation, or (as the code also tries) its
DER form under context tag 6. -/
def NamesCurve (oid : Bytes) (k : Curve) : Prop :=
  ∃ ids, (ids, k) ∈ curves ∧
    (IsDotted oid ids ∨
     ∃ l content t, oid = 0x86 :: l ++ content ++ t ∧ LengthOctets l content.length ∧ OidOctets content ids)

/-- `full` is the first item inside the outer item of `raw`. -/
def SignedPart (raw full : Bytes) : Prop :=
  ∃ iOuter content t0 t1, raw = iOuter ++ t0 ∧ Item iOuter (full ++ t1) ∧ Item full content

end Tacho.Spec
