import Verif.Model.Version
/-
Versions of programs, and which is newer.
-/
namespace Cot

/-- a run of decimal digits -/
def DigitText (d : Str) : Prop := d ≠ [] ∧ ∀ c ∈ d, '0' ≤ c ∧ c ≤ '9'

/-- nothing, or `a` or `b` with a number -/
inductive PreText : Str → Option (Char × Nat) → Prop
  | release : PreText [] none
  | mark {c d} : (c = 'a' ∨ c = 'b') → DigitText d → PreText (c :: d) (some (c, digitsVal d))

/-- `1.2` or `1.2.3`, possibly with a prerelease -/
inductive VersionText : Str → PyVersion → Prop
  | two {x y t p} : DigitText x → DigitText y → PreText t p →
      VersionText (x ++ '.' :: y ++ t) ⟨digitsVal x, digitsVal y, 0, p⟩
  | three {x y z t p} : DigitText x → DigitText y → DigitText z → PreText t p →
      VersionText (x ++ '.' :: y ++ '.' :: z ++ t) ⟨digitsVal x, digitsVal y, digitsVal z, p⟩

/-- `b` is older than `a` as a prerelease: a prerelease is older than the release, `a` than `b`, a lower number than a higher -/
def OlderPre : Option (Char × Nat) → Option (Char × Nat) → Prop
  | some _, none => True
  | some (c, m), some (d, n) => c.toNat < d.toNat ∨ (c = d ∧ m < n)
  | none, _ => False

/-- `a` is older than `b`: the first number that differs decides -/
def Older (a b : PyVersion) : Prop :=
  a.major < b.major ∨ (a.major = b.major ∧ (a.minor < b.minor ∨ (a.minor = b.minor ∧
    (a.patch < b.patch ∨ (a.patch = b.patch ∧ OlderPre a.pre b.pre)))))

/-- `t` is the first text of digits and dots, as long as possible, that follows `lit` in `out` -/
def FirstAfter (lit out t : Str) : Prop :=
  ∃ A B, out = A ++ lit ++ t ++ B ∧ t ≠ [] ∧ (∀ c ∈ t, ('0' ≤ c ∧ c ≤ '9') ∨ c = '.') ∧
    (∀ c, B.head? = some c → ¬ (('0' ≤ c ∧ c ≤ '9') ∨ c = '.')) ∧
    ∀ A' c B', out = A' ++ lit ++ c :: B' → (('0' ≤ c ∧ c ≤ '9') ∨ c = '.') → A.length ≤ A'.length

end Cot
