import Verif.StaticSite.Model
import Verif.StaticFiles.Spec
import Verif.LoginReturn.Spec

/-!
# Specification for C157

A reader knows the names of directories and files, and how a browser makes an address from a link.
-/

namespace Verif.StaticSite.Spec

open Verif

/-- The names of directories, and perhaps of a file at the end, as a path; the directory that is mounted is `.`. -/
def below : List Str → Str
  | [] => ".".toList
  | n :: ns => joinWith "/".toList (n :: ns)

/-- An ordinary request below the place where the files are mounted, for what these names say.  Empty names and `.` do
not count; the first name begins with no dot, and none is `..`. -/
structure Asks (sc : AbsoluteUrl.Sc) (names : List Str) : Prop where
  mounted : ∃ rest, sc.path = sc.rootPath ++ '/' :: rest ∧
    names = (splitOn '/' rest).filter (fun n => n ≠ [] ∧ n ≠ ".".toList)
  up : "..".toList ∉ names
  dot : ∀ n ∈ names.head?, n.head? ≠ some '.'

/-- A directory with an index page: the directory is the first thing of its name, and the page is the first thing of its
name. -/
structure Indexed (c : StaticFiles.Conf) (stat : Str → StaticFiles.Kind) (names : List Str) (page : Str) : Prop where
  directory : ∃ d, StaticFiles.Spec.First stat (c.full (below names)) d ∧ stat d = .directory
  first : StaticFiles.Spec.First stat (c.full (below names ++ "/index.html".toList)) page
  regular : stat page = .regular

/-- Where a link without scheme, host, query and dots leads that does not begin with a slash (RFC 3986, 5.2.3): it
replaces what follows the last slash of the path of the page. -/
def Leads (page link target : Str) : Prop :=
  ∃ a b, page = a ++ '/' :: b ∧ '/' ∉ b ∧ target = a ++ '/' :: link

end Verif.StaticSite.Spec
