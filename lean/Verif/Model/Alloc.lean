import Verif.Model.Rat

/-!
# Model of the functions that allocate and free variables

`mp_int_alloc`, `mp_int_free`, `mp_rat_alloc` and `mp_rat_free`.  A block of characters, of pointers or of an
`mpz_t` is requested from the same allocator as digits, in units of 4 characters.  Where `malloc` refuses such
a block, the model ends the run as it does for digits; `mp_int_alloc` and `mp_rat_alloc` return NULL then.
-/

namespace Imath

/-- `malloc` of a block of `4 * n` characters whose contents are modelled elsewhere -/
def request (n : Nat) : M Unit := fun env m =>
  if env.grant m.next n then .ok () { m with next := m.next + 1 } else .fault (.oom n)

/-- imath.c:380-386 `mp_int_alloc` -/
def mp_int_alloc : M Id := do
  request 6
  let out ← declInt .tmp
  let _ ← mp_int_init out
  pure out

/-- imath.c:471-476 `mp_int_free` -/
def mp_int_free (z : Id) : M Unit := do
  mp_int_clear z
  dropInt z

/-- imrat.c:65-76 `mp_rat_alloc`; `none` is NULL -/
def mp_rat_alloc : M (Option MpQ) := do
  request 12
  let num ← declInt .tmp
  let den ← declInt .tmp
  let res ← mp_rat_init ⟨num, den⟩
  if res ≠ MP_OK then do
    dropInt num
    dropInt den
    pure none
  else pure (some ⟨num, den⟩)

/-- imrat.c:141-147 `mp_rat_free` -/
def mp_rat_free (r : MpQ) : M Unit := do
  let Z ← getI r.num
  cwhen (Z.digits ≠ none) (mp_rat_clear r)
  dropInt r.num
  dropInt r.den

end Imath
