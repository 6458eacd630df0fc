import Verif.Props.Conv
import Verif.Proof.Overread

/-!
# Input from too short an array or an unterminated text, output with a limit that is not positive (C31, C33, C34, C35)

`mp_int_read_cstring` takes the length of the text by `strlen` before it reads digits, so a text without terminator
is overrun even if an invalid character would have ended the number.
-/

namespace Imath

variable {m : Mem} {env : Env} {ρ : Nat → Option Int} {a c r : Nat} {x w : Int} {buf str : Bytes} {len limit : Int}

/-- A text without terminator is read beyond its end, whatever it contains. -/
theorem C31_unterminated (h : State m ρ) (hc : ρ c = some w) (hr : 2 ≤ r ∧ r ≤ 36) (h0 : 0 ∉ str) :
    FaultsOr env (mp_int_read_cstring (.var c) r str) m .ub :=
  .of_wp (mp_int_read_cstring_fault (.inl rfl) hr h0 h.r2 hc)

example (h : State m demo) : FaultsOr env (mp_int_read_cstring (.var 1) 10 [32, 48, 49, 120]) m .ub :=
  C31_unterminated h (w := -(2 ^ 70)) rfl (by omega) (by decide)

/-- An array shorter than the given length is read beyond its end. -/
theorem C33_read_binary_short (h : State m ρ) (hc : ρ c = some w) (hb : ∀ b ∈ buf, b < 256) (hl : (buf.length : Int) < len)
    (h2 : len < 2 ^ 28) : FaultsOr env (mp_int_read_binary (.var c) buf len) m .ub :=
  .of_wp (mp_int_read_binary_fault (ref_or env _) (.inl rfl) hb hl (by omega) rfl h.r2 hc)

example (h : State m demo) : FaultsOr env (mp_int_read_binary (.var 1) [127, 0, 255] 5) m .ub :=
  C33_read_binary_short h (w := -(2 ^ 70)) rfl (by decide) (by simp) (by omega)

theorem C34_read_unsigned_short (h : State m ρ) (hc : ρ c = some w) (hb : ∀ b ∈ buf, b < 256) (hl : (buf.length : Int) < len)
    (h2 : len < 2 ^ 28) : FaultsOr env (mp_int_read_unsigned (.var c) buf len) m .ub :=
  .of_wp (mp_int_read_unsigned_fault (ref_or env _) (.inl rfl) hb hl (by omega) rfl h.r2 hc)

example (h : State m demo) : FaultsOr env (mp_int_read_unsigned (.var 1) [127, 0, 255] 5) m .ub :=
  C34_read_unsigned_short h (w := -(2 ^ 70)) rfl (by decide) (by simp) (by omega)

/-- For every number and every limit of 0 or less, the padding test reads before the start of the array. -/
theorem C35_limit_zero (h : State m ρ) (ha : ρ a = some x) (hl : limit ≤ 0) :
    FaultsOr env (mp_int_to_binary (.var a) buf limit) m .ub :=
  .of_wp (mp_int_to_binary_zero (.inl rfl) hl h.r2 ha)

example (h : State m demo) : FaultsOr env (mp_int_to_binary (.var 1) [1, 2, 3] (-1)) m .ub :=
  C35_limit_zero h (x := -(2 ^ 70)) rfl (by omega)

end Imath
