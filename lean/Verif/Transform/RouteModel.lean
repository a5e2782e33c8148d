import Verif.Transform.Model

/-!
# The paths of the router

The path that the transformation makes of the path of a blueprint (`to_axum_path`,
`/repo/libs/runtime/core/src/transform_config.rs` 301 and 448-470) is given to the router when a handler is
registered (`/repo/libs/runtime/core/src/application.rs` 349-391). The router is axum 0.7
(`/repo/libs/runtime/core/Cargo.toml` 8), which is not part of the repository: this is its documented
behaviour for one path. Values are compared as they are in the request, before percent-decoding.
-/

namespace Verif.Transform.Route

open Verif Verif.Subst Verif.Transform

/-- Everything before the next separator. -/
def upTo (s : Str) : Str := s.takeWhile (· ≠ '/')

/-- Everything from the next separator on. -/
def after (s : Str) : Str := s.dropWhile (· ≠ '/')

/-- The parameters with which a request has a path of the router: `:name` stands for the text before the next
separator, `*name` for everything that is left, neither of them empty; other characters stand for
themselves. The number bounds the recursion; more than the length of the path is enough. -/
def matchFrom : Nat → Str → Str → Option (List (Str × Str))
  | 0, _, _ => none
  | _ + 1, [], r => if r = [] then some [] else none
  | f + 1, c :: p, r =>
    if c = ':' then
      if upTo r = [] then none
      else (matchFrom f (after p) (after r)).map ((upTo p, upTo r) :: ·)
    else if c = '*' then if r = [] then none else some [(p, r)]
    else
      match r with
      | [] => none
      | d :: r => if c = d then matchFrom f p r else none

/-- The same with enough steps. -/
def routerMatch (path request : Str) : Option (List (Str × Str)) :=
  matchFrom (path.length + 1) path request

/-- No character of the router's syntax. -/
def noSyntax (s : Str) : Bool := s.all fun c => c ≠ ':' && c ≠ '*'

/-- Whether the router takes the rest of a path; otherwise it panics. Parameters have names, a part between separators
has one parameter at most, and `*name` comes last, after a separator. `sep`: the character before was one. -/
def takes : Nat → Bool → Str → Bool
  | 0, _, _ => false
  | _ + 1, _, [] => true
  | f + 1, sep, c :: p =>
    if c = ':' then !(upTo p).isEmpty && noSyntax (upTo p) && takes f false (after p)
    else if c = '*' then sep && !p.isEmpty && noSyntax p && (after p).isEmpty
    else takes f (c == '/') p

/-- Whether the router takes a path, which starts with a separator. -/
def routerTakes (path : Str) : Bool := path.head? == some '/' && takes (path.length + 1) false path

end Verif.Transform.Route
