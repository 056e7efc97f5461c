import Verif.Py.Val
import Verif.Py.Basic
/-
Which Python values can go into a token, and as what.
-/

namespace Verif.Spec

mutual
/-- `w` is what a receiver gets for `v`: `v` with every byte string replaced by the text it is the UTF-8
encoding of.  There is no such `w` for a value that contains a float or bytes that are not UTF-8. -/
inductive TextOf : PyVal → PyVal → Prop
  | none : TextOf .none .none
  | bool (b) : TextOf (.bool b) (.bool b)
  | int (i) : TextOf (.int i) (.int i)
  | str (s) : TextOf (.str s) (.str s)
  | bytes (s) : TextOf (.bytes (utf8Encode s)) (.str s)
  | list {l m} (h : TextOfL l m) : TextOf (.list l) (.list m)
  | dict {l m} (h : TextOfD l m) : TextOf (.dict l) (.dict m)
/-- The same for the elements of a list. -/
inductive TextOfL : List PyVal → List PyVal → Prop
  | nil : TextOfL [] []
  | cons {v w l m} (h : TextOf v w) (t : TextOfL l m) : TextOfL (v :: l) (w :: m)
/-- The same for the values of a dictionary. -/
inductive TextOfD : List (String × PyVal) → List (String × PyVal) → Prop
  | nil : TextOfD [] []
  | cons {k v w l m} (h : TextOf v w) (t : TextOfD l m) : TextOfD ((k, v) :: l) ((k, w) :: m)
end

mutual
/-- Some element at some depth is a float. -/
inductive HasFloat : PyVal → Prop
  | float (t) : HasFloat (.float t)
  | list {l v} (hm : v ∈ l) (h : HasFloat v) : HasFloat (.list l)
  | dict {d : List (String × PyVal)} {k v} (hm : (k, v) ∈ d) (h : HasFloat v) : HasFloat (.dict d)
end

end Verif.Spec
