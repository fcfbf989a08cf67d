import Verif.Url.Model
import Verif.MultiDict.Model

/-!
# Query helpers of URLs

Model of `URL.replace(query=…)`, `include_query_params`, `remove_query_params` and
`replace_query_params` (/repo/lilya/datastructures.py 520-591).
-/

namespace Verif.UrlQuery

open Verif Verif.Url Verif.MultiDict

/-- Python `a <= b` on strings: lexicographic by code point. -/
def leStr : Str → Str → Bool
  | [], _ => true
  | _ :: _, [] => false
  | a :: as, b :: bs => if a = b then leStr as bs else decide (a.toNat ≤ b.toNat)

/-- Python `a <= b` on pairs of strings. -/
def lePair (a b : Str × Str) : Bool := if a.1 = b.1 then leStr a.2 b.2 else leStr a.1 b.1

/-- Insert a pair before the first one that is not smaller. -/
def insertPair (p : Str × Str) : List (Str × Str) → List (Str × Str)
  | [] => [p]
  | q :: qs => if lePair p q then p :: q :: qs else q :: insertPair p qs

/-- Python `sorted(pairs)` (as insertion sort; a sorted arrangement is unique, see
`sortPairs_congr`). -/
def sortPairs (ps : List (Str × Str)) : List (Str × Str) := ps.foldr insertPair []

/-- `URL.replace(query=q)` (/repo/lilya/datastructures.py 520-543): the components are put
together and parsed again.  `none` is a `ValueError`. -/
def replaceQuery (ip6 : Str → Bool) (u : Split) (q : Str) : Option Split :=
  mkURL ip6 (geturl { u with query := q })

/-- The query made by `include_query_params(**kwargs)` (/repo/lilya/datastructures.py 545-558); `ks` is
the order in which Python iterates over the key set in `multi_items`. -/
def includeQuery (ks : List Str) (query : Str) (kwargs : List (Str × Str)) : Str :=
  urlencode (sortPairs (multiItems id ks (update id (parseQsl true query) kwargs)))

/-- The query made by `remove_query_params(keys)` (/repo/lilya/datastructures.py 560-576). -/
def removeQuery (ks : List Str) (query : Str) (keys : List Str) : Str :=
  urlencode (sortPairs (multiItems id ks (keys.foldl (pop id) (parseQsl true query))))

/-- The query made by `replace_query_params(**kwargs)` (/repo/lilya/datastructures.py 578-590). -/
def replaceParams (kwargs : List (Str × Str)) : Str := urlencode kwargs

end Verif.UrlQuery
