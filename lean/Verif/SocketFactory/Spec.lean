import Verif.SocketFactory.Model

/-!
# What is expected of controllers with constructor arguments
-/

namespace Verif.SocketFactory.Spec

open Verif.SocketFactory

variable {A C : Type}

/-- The class was made by `with_init` from a class of a user, for which it was called once or more; `n` is the
class of the user and `a` are the arguments of the first call. -/
inductive Wraps : Cls A → Nat → A → Prop where
  | once (i n : Nat) (a : A) : Wraps (.factory i (.plain n) a) n a
  | again (i n : Nat) (c : Cls A) (a b : A) : Wraps c n a → Wraps (.factory i c b) n a

/-- A subclass at any depth of a class made by `with_init`, or such a class; `n` and `a` as before. -/
inductive Below : Cls A → Nat → A → Prop where
  | top (c : Cls A) (n : Nat) (a : A) : Wraps c n a → Below c n a
  | sub (i n : Nat) (p : Cls A) (a : A) : Below p n a → Below (.sub i p) n a

/-- The identities of a class and its ancestors. -/
inductive Ancestor : Cls A → Nat → Prop where
  | factory (i : Nat) (c : Cls A) (a : A) : Ancestor (.factory i c a) i
  | sub (i : Nat) (p : Cls A) : Ancestor (.sub i p) i
  | up (i k : Nat) (p : Cls A) : Ancestor p k → Ancestor (.sub i p) k

/-- The class with identity `k` is used in constructing the class: itself, an ancestor or the class that was given
to `with_init`. -/
inductive Uses : Cls A → Nat → Prop where
  | factory (i : Nat) (c : Cls A) (a : A) : Uses (.factory i c a) i
  | base (i k : Nat) (c : Cls A) (a : A) : Uses c k → Uses (.factory i c a) k
  | sub (i : Nat) (p : Cls A) : Uses (.sub i p) i
  | up (i k : Nat) (p : Cls A) : Uses p k → Uses (.sub i p) k

/-- The class of a step. -/
def cls : Step A C → Cls A
  | .connect c _ => c
  | .call c _ => c
  | .make c _ => c
  | .wait c => c

end Verif.SocketFactory.Spec
