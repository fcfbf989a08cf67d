import Verif.ExtValue.Model
import Verif.Base64.Spec
import Verif.DebugPage.Model
import Verif.Url.Model
import Verif.SignedUrl.Model
import Verif.Cookies.Model
import Verif.StaticFiles.Model
import Verif.Ranges.Model
import Verif.Path.Model
import Verif.Json.Model
import Verif.Sse.Model

/-!
# Tests of the models of library functions

These are tests, not proofs: the right-hand sides were computed by CPython 3.11 on the left-hand sides.
-/

namespace Verif.Conformance

open Verif

/-! ## `urllib.parse.urlsplit` -/

example : Url.urlsplit (fun _ => true) "http://u:p@h:80/a/b;c?d=e#f".toList = some ⟨"http".toList, "u:p@h:80".toList, "/a/b;c".toList, "d=e".toList, "f".toList⟩ := by decide +kernel
example : Url.urlsplit (fun _ => true) "HTTPS://H".toList = some ⟨"https".toList, "H".toList, [], [], []⟩ := by decide +kernel
example : Url.urlsplit (fun _ => true) "//h/x".toList = some ⟨[], "h".toList, "/x".toList, [], []⟩ := by decide +kernel
example : Url.urlsplit (fun _ => true) "/a?b#c".toList = some ⟨[], [], "/a".toList, "b".toList, "c".toList⟩ := by decide +kernel
example : Url.urlsplit (fun _ => true) "ftp://h/x".toList = some ⟨"ftp".toList, "h".toList, "/x".toList, [], []⟩ := by decide +kernel
example : Url.urlsplit (fun _ => true) "file:///x".toList = some ⟨"file".toList, [], "/x".toList, [], []⟩ := by decide +kernel
example : Url.urlsplit (fun _ => true) "mailto:a@b".toList = some ⟨"mailto".toList, [], "a@b".toList, [], []⟩ := by decide +kernel
example : Url.urlsplit (fun _ => true) "x-y:z".toList = some ⟨"x-y".toList, [], "z".toList, [], []⟩ := by decide +kernel
example : Url.urlsplit (fun _ => true) "1a:b".toList = some ⟨[], [], "1a:b".toList, [], []⟩ := by decide +kernel
example : Url.urlsplit (fun _ => true) " http://h/\tx\n".toList = some ⟨"http".toList, "h".toList, "/x".toList, [], []⟩ := by decide +kernel
example : Url.urlsplit (fun _ => true) "?q".toList = some ⟨[], [], [], "q".toList, []⟩ := by decide +kernel
example : Url.urlsplit (fun _ => true) "#f".toList = some ⟨[], [], [], [], "f".toList⟩ := by decide +kernel
example : Url.urlsplit (fun _ => true) "a:80".toList = some ⟨"a".toList, [], "80".toList, [], []⟩ := by decide +kernel
example : Url.urlsplit (fun _ => true) "http:///p".toList = some ⟨"http".toList, [], "/p".toList, [], []⟩ := by decide +kernel
example : Url.urlsplit (fun _ => true) "ws://h/".toList = some ⟨"ws".toList, "h".toList, "/".toList, [], []⟩ := by decide +kernel
example : Url.urlsplit (fun _ => true) "wss:/x".toList = some ⟨"wss".toList, [], "/x".toList, [], []⟩ := by decide +kernel
example : Url.urlsplit (fun _ => true) "http://h?a#b?c".toList = some ⟨"http".toList, "h".toList, [], "a".toList, "b?c".toList⟩ := by decide +kernel
example : Url.urlsplit (fun _ => true) "a//b".toList = some ⟨[], [], "a//b".toList, [], []⟩ := by decide +kernel
example : Url.urlsplit (fun _ => true) "x:y:z?".toList = some ⟨"x".toList, [], "y:z".toList, [], []⟩ := by decide +kernel

/-! ## `SplitResult.geturl` -/

example : (Url.urlsplit (fun _ => true) "http://u:p@h:80/a/b;c?d=e#f".toList).map Url.geturl = some "http://u:p@h:80/a/b;c?d=e#f".toList := by decide +kernel
example : (Url.urlsplit (fun _ => true) "HTTPS://H".toList).map Url.geturl = some "https://H".toList := by decide +kernel
example : (Url.urlsplit (fun _ => true) "//h/x".toList).map Url.geturl = some "//h/x".toList := by decide +kernel
example : (Url.urlsplit (fun _ => true) "/a?b#c".toList).map Url.geturl = some "/a?b#c".toList := by decide +kernel
example : (Url.urlsplit (fun _ => true) "ftp://h/x".toList).map Url.geturl = some "ftp://h/x".toList := by decide +kernel
example : (Url.urlsplit (fun _ => true) "file:///x".toList).map Url.geturl = some "file:///x".toList := by decide +kernel
example : (Url.urlsplit (fun _ => true) "mailto:a@b".toList).map Url.geturl = some "mailto:a@b".toList := by decide +kernel
example : (Url.urlsplit (fun _ => true) "x-y:z".toList).map Url.geturl = some "x-y:z".toList := by decide +kernel
example : (Url.urlsplit (fun _ => true) "1a:b".toList).map Url.geturl = some "1a:b".toList := by decide +kernel
example : (Url.urlsplit (fun _ => true) " http://h/\tx\n".toList).map Url.geturl = some "http://h/x".toList := by decide +kernel
example : (Url.urlsplit (fun _ => true) "?q".toList).map Url.geturl = some "?q".toList := by decide +kernel
example : (Url.urlsplit (fun _ => true) "#f".toList).map Url.geturl = some "#f".toList := by decide +kernel
example : (Url.urlsplit (fun _ => true) "a:80".toList).map Url.geturl = some "a:80".toList := by decide +kernel
example : (Url.urlsplit (fun _ => true) "http:///p".toList).map Url.geturl = some "http:///p".toList := by decide +kernel
example : (Url.urlsplit (fun _ => true) "ws://h/".toList).map Url.geturl = some "ws://h/".toList := by decide +kernel
example : (Url.urlsplit (fun _ => true) "wss:/x".toList).map Url.geturl = some "wss:///x".toList := by decide +kernel
example : (Url.urlsplit (fun _ => true) "http://h?a#b?c".toList).map Url.geturl = some "http://h?a#b?c".toList := by decide +kernel
example : (Url.urlsplit (fun _ => true) "a//b".toList).map Url.geturl = some "a//b".toList := by decide +kernel
example : (Url.urlsplit (fun _ => true) "x:y:z?".toList).map Url.geturl = some "x:y:z".toList := by decide +kernel

/-! ## `urllib.parse.urlunsplit` -/

example : Url.geturl ⟨"http".toList, [], "/a".toList, [], []⟩ = "http:///a".toList := by decide +kernel
example : Url.geturl ⟨"http".toList, [], "a".toList, [], []⟩ = "http:///a".toList := by decide +kernel
example : Url.geturl ⟨"http".toList, "h".toList, "a".toList, [], []⟩ = "http://h/a".toList := by decide +kernel
example : Url.geturl ⟨"http".toList, [], "//a".toList, [], []⟩ = "http:////a".toList := by decide +kernel
example : Url.geturl ⟨"https".toList, [], "/a".toList, [], []⟩ = "https:///a".toList := by decide +kernel
example : Url.geturl ⟨"https".toList, [], "a".toList, [], []⟩ = "https:///a".toList := by decide +kernel
example : Url.geturl ⟨"https".toList, "h".toList, "a".toList, [], []⟩ = "https://h/a".toList := by decide +kernel
example : Url.geturl ⟨"https".toList, [], "//a".toList, [], []⟩ = "https:////a".toList := by decide +kernel
example : Url.geturl ⟨"ws".toList, [], "/a".toList, [], []⟩ = "ws:///a".toList := by decide +kernel
example : Url.geturl ⟨"ws".toList, [], "a".toList, [], []⟩ = "ws:///a".toList := by decide +kernel
example : Url.geturl ⟨"ws".toList, "h".toList, "a".toList, [], []⟩ = "ws://h/a".toList := by decide +kernel
example : Url.geturl ⟨"ws".toList, [], "//a".toList, [], []⟩ = "ws:////a".toList := by decide +kernel
example : Url.geturl ⟨"wss".toList, [], "/a".toList, [], []⟩ = "wss:///a".toList := by decide +kernel
example : Url.geturl ⟨"wss".toList, [], "a".toList, [], []⟩ = "wss:///a".toList := by decide +kernel
example : Url.geturl ⟨"wss".toList, "h".toList, "a".toList, [], []⟩ = "wss://h/a".toList := by decide +kernel
example : Url.geturl ⟨"wss".toList, [], "//a".toList, [], []⟩ = "wss:////a".toList := by decide +kernel
example : Url.geturl ⟨"ftp".toList, [], "/a".toList, [], []⟩ = "ftp:///a".toList := by decide +kernel
example : Url.geturl ⟨"ftp".toList, [], "a".toList, [], []⟩ = "ftp:///a".toList := by decide +kernel
example : Url.geturl ⟨"ftp".toList, "h".toList, "a".toList, [], []⟩ = "ftp://h/a".toList := by decide +kernel
example : Url.geturl ⟨"ftp".toList, [], "//a".toList, [], []⟩ = "ftp:////a".toList := by decide +kernel
example : Url.geturl ⟨"file".toList, [], "/a".toList, [], []⟩ = "file:///a".toList := by decide +kernel
example : Url.geturl ⟨"file".toList, [], "a".toList, [], []⟩ = "file:///a".toList := by decide +kernel
example : Url.geturl ⟨"file".toList, "h".toList, "a".toList, [], []⟩ = "file://h/a".toList := by decide +kernel
example : Url.geturl ⟨"file".toList, [], "//a".toList, [], []⟩ = "file:////a".toList := by decide +kernel
example : Url.geturl ⟨"x".toList, [], "/a".toList, [], []⟩ = "x:/a".toList := by decide +kernel
example : Url.geturl ⟨"x".toList, [], "a".toList, [], []⟩ = "x:a".toList := by decide +kernel
example : Url.geturl ⟨"x".toList, "h".toList, "a".toList, [], []⟩ = "x://h/a".toList := by decide +kernel
example : Url.geturl ⟨"x".toList, [], "//a".toList, [], []⟩ = "x:////a".toList := by decide +kernel
example : Url.geturl ⟨[], [], "/a".toList, [], []⟩ = "/a".toList := by decide +kernel
example : Url.geturl ⟨[], [], "a".toList, [], []⟩ = "a".toList := by decide +kernel
example : Url.geturl ⟨[], "h".toList, "a".toList, [], []⟩ = "//h/a".toList := by decide +kernel
example : Url.geturl ⟨[], [], "//a".toList, [], []⟩ = "////a".toList := by decide +kernel

/-! ## `urllib.parse.urlparse` -/

example : SignedUrl.urlparse (fun _ => true) "//h/a;b".toList = some ⟨[], "h".toList, "/a".toList, "b".toList, [], []⟩ := by decide +kernel
example : SignedUrl.urlparse (fun _ => true) "ftp://h/a;b".toList = some ⟨"ftp".toList, "h".toList, "/a".toList, "b".toList, [], []⟩ := by decide +kernel
example : SignedUrl.urlparse (fun _ => true) "hdl://h/a;b".toList = some ⟨"hdl".toList, "h".toList, "/a".toList, "b".toList, [], []⟩ := by decide +kernel
example : SignedUrl.urlparse (fun _ => true) "prospero://h/a;b".toList = some ⟨"prospero".toList, "h".toList, "/a".toList, "b".toList, [], []⟩ := by decide +kernel
example : SignedUrl.urlparse (fun _ => true) "http://h/a;b".toList = some ⟨"http".toList, "h".toList, "/a".toList, "b".toList, [], []⟩ := by decide +kernel
example : SignedUrl.urlparse (fun _ => true) "imap://h/a;b".toList = some ⟨"imap".toList, "h".toList, "/a".toList, "b".toList, [], []⟩ := by decide +kernel
example : SignedUrl.urlparse (fun _ => true) "https://h/a;b".toList = some ⟨"https".toList, "h".toList, "/a".toList, "b".toList, [], []⟩ := by decide +kernel
example : SignedUrl.urlparse (fun _ => true) "shttp://h/a;b".toList = some ⟨"shttp".toList, "h".toList, "/a".toList, "b".toList, [], []⟩ := by decide +kernel
example : SignedUrl.urlparse (fun _ => true) "rtsp://h/a;b".toList = some ⟨"rtsp".toList, "h".toList, "/a".toList, "b".toList, [], []⟩ := by decide +kernel
example : SignedUrl.urlparse (fun _ => true) "rtsps://h/a;b".toList = some ⟨"rtsps".toList, "h".toList, "/a".toList, "b".toList, [], []⟩ := by decide +kernel
example : SignedUrl.urlparse (fun _ => true) "rtspu://h/a;b".toList = some ⟨"rtspu".toList, "h".toList, "/a".toList, "b".toList, [], []⟩ := by decide +kernel
example : SignedUrl.urlparse (fun _ => true) "sip://h/a;b".toList = some ⟨"sip".toList, "h".toList, "/a".toList, "b".toList, [], []⟩ := by decide +kernel
example : SignedUrl.urlparse (fun _ => true) "sips://h/a;b".toList = some ⟨"sips".toList, "h".toList, "/a".toList, "b".toList, [], []⟩ := by decide +kernel
example : SignedUrl.urlparse (fun _ => true) "mms://h/a;b".toList = some ⟨"mms".toList, "h".toList, "/a".toList, "b".toList, [], []⟩ := by decide +kernel
example : SignedUrl.urlparse (fun _ => true) "sftp://h/a;b".toList = some ⟨"sftp".toList, "h".toList, "/a".toList, "b".toList, [], []⟩ := by decide +kernel
example : SignedUrl.urlparse (fun _ => true) "tel://h/a;b".toList = some ⟨"tel".toList, "h".toList, "/a".toList, "b".toList, [], []⟩ := by decide +kernel
example : SignedUrl.urlparse (fun _ => true) "x://h/a;b".toList = some ⟨"x".toList, "h".toList, "/a;b".toList, [], [], []⟩ := by decide +kernel
example : SignedUrl.urlparse (fun _ => true) "ws://h/a;b".toList = some ⟨"ws".toList, "h".toList, "/a;b".toList, [], [], []⟩ := by decide +kernel
example : SignedUrl.urlparse (fun _ => true) "wss://h/a;b".toList = some ⟨"wss".toList, "h".toList, "/a;b".toList, [], [], []⟩ := by decide +kernel
example : SignedUrl.urlparse (fun _ => true) "/a;b/c;d".toList = some ⟨[], [], "/a;b/c".toList, "d".toList, [], []⟩ := by decide +kernel

/-! ## `urllib.parse.urlunparse` -/

example : (SignedUrl.urlparse (fun _ => true) "/a;b/c;d".toList).map SignedUrl.urlunparse = some "/a;b/c;d".toList := by decide +kernel

/-! ## `urllib.parse.urlparse` -/

example : SignedUrl.urlparse (fun _ => true) "/a;".toList = some ⟨[], [], "/a".toList, [], [], []⟩ := by decide +kernel

/-! ## `urllib.parse.urlunparse` -/

example : (SignedUrl.urlparse (fun _ => true) "/a;".toList).map SignedUrl.urlunparse = some "/a".toList := by decide +kernel

/-! ## `urllib.parse.urlparse` -/

example : SignedUrl.urlparse (fun _ => true) "/;x?y".toList = some ⟨[], [], "/".toList, "x".toList, "y".toList, []⟩ := by decide +kernel

/-! ## `urllib.parse.urlunparse` -/

example : (SignedUrl.urlparse (fun _ => true) "/;x?y".toList).map SignedUrl.urlunparse = some "/;x?y".toList := by decide +kernel

/-! ## `urllib.parse.urlparse` -/

example : SignedUrl.urlparse (fun _ => true) "a;b;c".toList = some ⟨[], [], "a".toList, "b;c".toList, [], []⟩ := by decide +kernel

/-! ## `urllib.parse.urlunparse` -/

example : (SignedUrl.urlparse (fun _ => true) "a;b;c".toList).map SignedUrl.urlunparse = some "a;b;c".toList := by decide +kernel

/-! ## `urllib.parse.urlparse` -/

example : SignedUrl.urlparse (fun _ => true) "/a/b;c=1?d=2#e".toList = some ⟨[], [], "/a/b".toList, "c=1".toList, "d=2".toList, "e".toList⟩ := by decide +kernel

/-! ## `urllib.parse.urlunparse` -/

example : (SignedUrl.urlparse (fun _ => true) "/a/b;c=1?d=2#e".toList).map SignedUrl.urlunparse = some "/a/b;c=1?d=2#e".toList := by decide +kernel

/-! ## `urllib.parse.parse_qsl` -/

example : Url.parseQsl true "a=1&b=2".toList = [("a".toList, "1".toList), ("b".toList, "2".toList)] := by decide +kernel
example : Url.parseQsl false "a=1&b=2".toList = [("a".toList, "1".toList), ("b".toList, "2".toList)] := by decide +kernel
example : Url.parseQsl true "a=&b".toList = [("a".toList, []), ("b".toList, [])] := by decide +kernel
example : Url.parseQsl false "a=&b".toList = [] := by decide +kernel
example : Url.parseQsl true "a=1&a=2".toList = [("a".toList, "1".toList), ("a".toList, "2".toList)] := by decide +kernel
example : Url.parseQsl false "a=1&a=2".toList = [("a".toList, "1".toList), ("a".toList, "2".toList)] := by decide +kernel
example : Url.parseQsl true "=x".toList = [([], "x".toList)] := by decide +kernel
example : Url.parseQsl false "=x".toList = [([], "x".toList)] := by decide +kernel
example : Url.parseQsl true "a=b=c".toList = [("a".toList, "b=c".toList)] := by decide +kernel
example : Url.parseQsl false "a=b=c".toList = [("a".toList, "b=c".toList)] := by decide +kernel
example : Url.parseQsl true "a%3Db=%26".toList = [("a=b".toList, "&".toList)] := by decide +kernel
example : Url.parseQsl false "a%3Db=%26".toList = [("a=b".toList, "&".toList)] := by decide +kernel
example : Url.parseQsl true "a+b=c%20d".toList = [("a b".toList, "c d".toList)] := by decide +kernel
example : Url.parseQsl false "a+b=c%20d".toList = [("a b".toList, "c d".toList)] := by decide +kernel
example : Url.parseQsl true "&&".toList = [] := by decide +kernel
example : Url.parseQsl false "&&".toList = [] := by decide +kernel
example : Url.parseQsl true "a=1;b=2".toList = [("a".toList, "1;b=2".toList)] := by decide +kernel
example : Url.parseQsl false "a=1;b=2".toList = [("a".toList, "1;b=2".toList)] := by decide +kernel

/-! ## `quote` and `unquote` -/

example : Url.quote (fun c => c = '/') "a b".toList = "a%20b".toList := by decide +kernel
example : Url.unquote "a b".toList = "a b".toList := by decide +kernel
example : Url.quotePlus "a b".toList = "a+b".toList := by decide +kernel
example : Url.unquotePlus "a b".toList = "a b".toList := by decide +kernel
example : Url.quote (fun c => c = '/') "%41".toList = "%2541".toList := by decide +kernel
example : Url.unquote "%41".toList = "A".toList := by decide +kernel
example : Url.quotePlus "%41".toList = "%2541".toList := by decide +kernel
example : Url.unquotePlus "%41".toList = "A".toList := by decide +kernel
example : Url.quote (fun c => c = '/') "%4".toList = "%254".toList := by decide +kernel
example : Url.unquote "%4".toList = "%4".toList := by decide +kernel
example : Url.quotePlus "%4".toList = "%254".toList := by decide +kernel
example : Url.unquotePlus "%4".toList = "%4".toList := by decide +kernel
example : Url.quote (fun c => c = '/') "%zz".toList = "%25zz".toList := by decide +kernel
example : Url.unquote "%zz".toList = "%zz".toList := by decide +kernel
example : Url.quotePlus "%zz".toList = "%25zz".toList := by decide +kernel
example : Url.unquotePlus "%zz".toList = "%zz".toList := by decide +kernel
example : Url.quote (fun c => c = '/') "a+b".toList = "a%2Bb".toList := by decide +kernel
example : Url.unquote "a+b".toList = "a+b".toList := by decide +kernel
example : Url.quotePlus "a+b".toList = "a%2Bb".toList := by decide +kernel
example : Url.unquotePlus "a+b".toList = "a b".toList := by decide +kernel
example : Url.quote (fun c => c = '/') "~-._".toList = "~-._".toList := by decide +kernel
example : Url.unquote "~-._".toList = "~-._".toList := by decide +kernel
example : Url.quotePlus "~-._".toList = "~-._".toList := by decide +kernel
example : Url.unquotePlus "~-._".toList = "~-._".toList := by decide +kernel
example : Url.quote (fun c => c = '/') "/?#[]@!$&'()*+,;=".toList = "/%3F%23%5B%5D%40%21%24%26%27%28%29%2A%2B%2C%3B%3D".toList := by decide +kernel
example : Url.unquote "/?#[]@!$&'()*+,;=".toList = "/?#[]@!$&'()*+,;=".toList := by decide +kernel
example : Url.quotePlus "/?#[]@!$&'()*+,;=".toList = "%2F%3F%23%5B%5D%40%21%24%26%27%28%29%2A%2B%2C%3B%3D".toList := by decide +kernel
example : Url.unquotePlus "/?#[]@!$&'()*+,;=".toList = "/?#[]@!$&'()* ,;=".toList := by decide +kernel
example : Url.quote (fun c => c = '/') "%2541".toList = "%252541".toList := by decide +kernel
example : Url.unquote "%2541".toList = "%41".toList := by decide +kernel
example : Url.quotePlus "%2541".toList = "%252541".toList := by decide +kernel
example : Url.unquotePlus "%2541".toList = "%41".toList := by decide +kernel
example : Url.quote (fun c => c = '/') "\x00\x7f".toList = "%00%7F".toList := by decide +kernel
example : Url.unquote "\x00\x7f".toList = "\x00\x7f".toList := by decide +kernel
example : Url.quotePlus "\x00\x7f".toList = "%00%7F".toList := by decide +kernel
example : Url.unquotePlus "\x00\x7f".toList = "\x00\x7f".toList := by decide +kernel

/-! ## `http.cookies._quote` -/

example : Cookies.quote [] = "\"\"".toList := by decide +kernel
example : Cookies.quote "a".toList = "a".toList := by decide +kernel
example : Cookies.quote "a b".toList = "\"a b\"".toList := by decide +kernel
example : Cookies.quote "a\"b".toList = "\"a\\\"b\"".toList := by decide +kernel
example : Cookies.quote "a\\b".toList = "\"a\\\\b\"".toList := by decide +kernel
example : Cookies.quote "a;b".toList = "\"a\\073b\"".toList := by decide +kernel
example : Cookies.quote "a,b".toList = "\"a\\054b\"".toList := by decide +kernel
example : Cookies.quote "ÿ".toList = "\"\\377\"".toList := by decide +kernel
example : Cookies.quote "þ".toList = "\"\\376\"".toList := by decide +kernel
example : Cookies.quote "Ā".toList = "\"Ā\"".toList := by decide +kernel
example : Cookies.quote "\n".toList = "\"\\012\"".toList := by decide +kernel
example : Cookies.quote "\x00".toList = "\"\\000\"".toList := by decide +kernel
example : Cookies.quote "\x7f".toList = "\"\\177\"".toList := by decide +kernel
example : Cookies.quote "\x80".toList = "\"\\200\"".toList := by decide +kernel
example : Cookies.quote "a=b".toList = "\"a=b\"".toList := by decide +kernel
example : Cookies.quote "!#$%&'*+-.^_`|~:".toList = "!#$%&'*+-.^_`|~:".toList := by decide +kernel
example : Cookies.quote "(".toList = "\"(\"".toList := by decide +kernel
example : Cookies.quote ")".toList = "\")\"".toList := by decide +kernel
example : Cookies.quote "/".toList = "\"/\"".toList := by decide +kernel
example : Cookies.quote "<".toList = "\"<\"".toList := by decide +kernel
example : Cookies.quote ">".toList = "\">\"".toList := by decide +kernel
example : Cookies.quote "?".toList = "\"?\"".toList := by decide +kernel
example : Cookies.quote "@".toList = "\"@\"".toList := by decide +kernel
example : Cookies.quote "[".toList = "\"[\"".toList := by decide +kernel
example : Cookies.quote "]".toList = "\"]\"".toList := by decide +kernel
example : Cookies.quote "{".toList = "\"{\"".toList := by decide +kernel
example : Cookies.quote "}".toList = "\"}\"".toList := by decide +kernel

/-! ## `http.cookies._unquote` -/

example : Cookies.unquoteCookie [] = [] := by decide +kernel
example : Cookies.unquoteCookie "\"".toList = "\"".toList := by decide +kernel
example : Cookies.unquoteCookie "\"\"".toList = [] := by decide +kernel
example : Cookies.unquoteCookie "a".toList = "a".toList := by decide +kernel
example : Cookies.unquoteCookie "\"a".toList = "\"a".toList := by decide +kernel
example : Cookies.unquoteCookie "\"a\\\"b\"".toList = "a\"b".toList := by decide +kernel
example : Cookies.unquoteCookie "\"\\073\"".toList = ";".toList := by decide +kernel
example : Cookies.unquoteCookie "\"\\400\"".toList = "400".toList := by decide +kernel
example : Cookies.unquoteCookie "\"\\38\"".toList = "38".toList := by decide +kernel
example : Cookies.unquoteCookie "\"\\\\\"".toList = "\\".toList := by decide +kernel
example : Cookies.unquoteCookie "\"\\\n\"".toList = "\\\n".toList := by decide +kernel
example : Cookies.unquoteCookie "\"\\x\"".toList = "x".toList := by decide +kernel
example : Cookies.unquoteCookie "\"a\\".toList = "\"a\\".toList := by decide +kernel
example : Cookies.unquoteCookie "\"\\377\\\"".toList = "ÿ\\".toList := by decide +kernel

/-! ## `posixpath` -/

example : StaticFiles.normpath [] = ".".toList := by decide +kernel
example : StaticFiles.normpath "/".toList = "/".toList := by decide +kernel
example : StaticFiles.normpath "//".toList = "//".toList := by decide +kernel
example : StaticFiles.normpath "///".toList = "/".toList := by decide +kernel
example : StaticFiles.normpath "a/../b".toList = "b".toList := by decide +kernel
example : StaticFiles.normpath "../a".toList = "../a".toList := by decide +kernel
example : StaticFiles.normpath "/../a".toList = "/a".toList := by decide +kernel
example : StaticFiles.normpath "a/./b//c/".toList = "a/b/c".toList := by decide +kernel
example : StaticFiles.normpath "./".toList = ".".toList := by decide +kernel
example : StaticFiles.normpath "//a/..".toList = "//".toList := by decide +kernel
example : StaticFiles.normpath "a/..".toList = ".".toList := by decide +kernel
example : StaticFiles.normpath "/a/../../b".toList = "/b".toList := by decide +kernel
example : StaticFiles.joinAll ["a".toList, "b".toList] = "a/b".toList := by decide +kernel
example : StaticFiles.joinAll ["a/".toList, "b".toList] = "a/b".toList := by decide +kernel
example : StaticFiles.joinAll ["a".toList, "/b".toList] = "/b".toList := by decide +kernel
example : StaticFiles.joinAll [[], "b".toList] = "b".toList := by decide +kernel
example : StaticFiles.joinAll ["a".toList, []] = "a/".toList := by decide +kernel
example : StaticFiles.joinAll ["a".toList, "b".toList, "/c".toList, "d".toList] = "/c/d".toList := by decide +kernel
example : StaticFiles.joinAll ["/".toList] = "/".toList := by decide +kernel

/-! ## `int` -/

example : Ranges.pyInt [] = none := by decide +kernel
example : Ranges.pyInt "0".toList = some (0) := by decide +kernel
example : Ranges.pyInt "-1".toList = some (-1) := by decide +kernel
example : Ranges.pyInt "+7".toList = some (7) := by decide +kernel
example : Ranges.pyInt " 12 ".toList = some (12) := by decide +kernel
example : Ranges.pyInt "1_000".toList = some (1000) := by decide +kernel
example : Ranges.pyInt "_1".toList = none := by decide +kernel
example : Ranges.pyInt "1_".toList = none := by decide +kernel
example : Ranges.pyInt "1__0".toList = none := by decide +kernel
example : Ranges.pyInt "- 1".toList = none := by decide +kernel
example : Ranges.pyInt "00".toList = some (0) := by decide +kernel
example : Ranges.pyInt "\t5\n".toList = some (5) := by decide +kernel
example : Ranges.pyInt "0x1".toList = none := by decide +kernel

/-! ## `datetime.strptime` -/

example : Path.strptimeOk "2024-01-31T00:00:00".toList = true := by decide +kernel
example : Path.strptimeOk "2024-01-32T00:00:00".toList = false := by decide +kernel
example : Path.strptimeOk "2024-04-30T00:00:00".toList = true := by decide +kernel
example : Path.strptimeOk "2024-04-31T00:00:00".toList = false := by decide +kernel
example : Path.strptimeOk "2024-02-29T23:59:59".toList = true := by decide +kernel
example : Path.strptimeOk "2023-02-29T00:00:00".toList = false := by decide +kernel
example : Path.strptimeOk "1900-02-29T00:00:00".toList = false := by decide +kernel
example : Path.strptimeOk "2000-02-29T00:00:00".toList = true := by decide +kernel
example : Path.strptimeOk "2024-12-01T24:00:00".toList = false := by decide +kernel
example : Path.strptimeOk "2024-12-01T23:60:00".toList = false := by decide +kernel
example : Path.strptimeOk "2024-12-01T23:59:60".toList = false := by decide +kernel
example : Path.strptimeOk "2024-12-01T23:59:61".toList = false := by decide +kernel
example : Path.strptimeOk "2024-00-01T00:00:00".toList = false := by decide +kernel
example : Path.strptimeOk "2024-13-01T00:00:00".toList = false := by decide +kernel
example : Path.strptimeOk "2024-01-00T00:00:00".toList = false := by decide +kernel
example : Path.strptimeOk "0000-01-01T00:00:00".toList = false := by decide +kernel
example : Path.strptimeOk "0001-01-01T00:00:00".toList = true := by decide +kernel
example : Path.strptimeOk "9999-12-31T23:59:59".toList = true := by decide +kernel
example : Path.strptimeOk "2024-01-01T00:00:00.5".toList = false := by decide +kernel

/-! ## `json.dumps` -/

example : Json.quoted [] = "\"\"".toList := by decide +kernel
example : Json.quoted "a".toList = "\"a\"".toList := by decide +kernel
example : Json.quoted "é\n\"\\/\x01\x1f\x7f\t\r\x08\x0c".toList = "\"é\\n\\\"\\\\/\\u0001\\u001f\x7f\\t\\r\\b\\f\"".toList := by decide +kernel

/-! ## `str.splitlines` -/

example : Sse.splitlines [] = [] := by decide +kernel
example : Sse.splitlines "\n".toList = [[]] := by decide +kernel
example : Sse.splitlines "a\nb".toList = ["a".toList, "b".toList] := by decide +kernel
example : Sse.splitlines "a\r\nb".toList = ["a".toList, "b".toList] := by decide +kernel
example : Sse.splitlines "a\rb\n".toList = ["a".toList, "b".toList] := by decide +kernel
example : Sse.splitlines "\x0b\x0c".toList = [[], []] := by decide +kernel
example : Sse.splitlines "a\x1cb\x1dc\x1ed\x85e".toList = ["a".toList, "b".toList, "c".toList, "d".toList, "e".toList] := by decide +kernel
example : Sse.splitlines "a\n\nb".toList = ["a".toList, [], "b".toList] := by decide +kernel

/-! ## `bytes.decode("utf-8", "replace")` -/

example : ExtValue.utf8Decode ([].map Char.ofNat) = ([].map Char.ofNat) := by decide +kernel
example : ExtValue.utf8Decode ([97, 98, 99].map Char.ofNat) = ([97, 98, 99].map Char.ofNat) := by decide +kernel
example : ExtValue.utf8Decode ([195, 169].map Char.ofNat) = ([233].map Char.ofNat) := by decide +kernel
example : ExtValue.utf8Decode ([195].map Char.ofNat) = ([65533].map Char.ofNat) := by decide +kernel
example : ExtValue.utf8Decode ([195, 97].map Char.ofNat) = ([65533, 97].map Char.ofNat) := by decide +kernel
example : ExtValue.utf8Decode ([230, 150, 135].map Char.ofNat) = ([25991].map Char.ofNat) := by decide +kernel
example : ExtValue.utf8Decode ([230, 150].map Char.ofNat) = ([65533].map Char.ofNat) := by decide +kernel
example : ExtValue.utf8Decode ([230, 150, 97].map Char.ofNat) = ([65533, 97].map Char.ofNat) := by decide +kernel
example : ExtValue.utf8Decode ([224, 128, 128].map Char.ofNat) = ([65533, 65533, 65533].map Char.ofNat) := by decide +kernel
example : ExtValue.utf8Decode ([237, 160, 128].map Char.ofNat) = ([65533, 65533, 65533].map Char.ofNat) := by decide +kernel
example : ExtValue.utf8Decode ([240, 159, 152, 128].map Char.ofNat) = ([128512].map Char.ofNat) := by decide +kernel
example : ExtValue.utf8Decode ([240, 159, 152].map Char.ofNat) = ([65533].map Char.ofNat) := by decide +kernel
example : ExtValue.utf8Decode ([244, 144, 128, 128].map Char.ofNat) = ([65533, 65533, 65533, 65533].map Char.ofNat) := by decide +kernel
example : ExtValue.utf8Decode ([255, 254].map Char.ofNat) = ([65533, 65533].map Char.ofNat) := by decide +kernel
example : ExtValue.utf8Decode ([192, 128].map Char.ofNat) = ([65533, 65533].map Char.ofNat) := by decide +kernel
example : ExtValue.utf8Decode ([128].map Char.ofNat) = ([65533].map Char.ofNat) := by decide +kernel
example : ExtValue.utf8Decode ([245, 128].map Char.ofNat) = ([65533, 65533].map Char.ofNat) := by decide +kernel
example : ExtValue.utf8Decode ([240, 128, 128, 128].map Char.ofNat) = ([65533, 65533, 65533, 65533].map Char.ofNat) := by decide +kernel
example : ExtValue.utf8Decode ([230, 195, 169].map Char.ofNat) = ([65533, 233].map Char.ofNat) := by decide +kernel
example : ExtValue.utf8Decode ([224, 159, 236, 128, 143, 243].map Char.ofNat) = ([65533, 65533, 49167, 65533].map Char.ofNat) := by decide +kernel
example : ExtValue.utf8Decode ([144, 225, 244, 128, 241, 191].map Char.ofNat) = ([65533, 65533, 65533, 65533].map Char.ofNat) := by decide +kernel
example : ExtValue.utf8Decode ([128, 143, 237, 237, 143, 193].map Char.ofNat) = ([65533, 65533, 65533, 65533, 65533].map Char.ofNat) := by decide +kernel
example : ExtValue.utf8Decode ([143, 243, 237, 128, 244, 144].map Char.ofNat) = ([65533, 65533, 65533, 65533, 65533].map Char.ofNat) := by decide +kernel
example : ExtValue.utf8Decode ([193, 244, 128, 244, 244, 236].map Char.ofNat) = ([65533, 65533, 65533, 65533, 65533].map Char.ofNat) := by decide +kernel
example : ExtValue.utf8Decode ([128, 193, 128, 243, 159, 223].map Char.ofNat) = ([65533, 65533, 65533, 65533, 65533].map Char.ofNat) := by decide +kernel
example : ExtValue.utf8Decode ([237, 159, 243, 144, 244, 223].map Char.ofNat) = ([65533, 65533, 65533, 65533].map Char.ofNat) := by decide +kernel
example : ExtValue.utf8Decode ([243, 160, 144, 244, 244, 191].map Char.ofNat) = ([65533, 65533, 65533, 65533].map Char.ofNat) := by decide +kernel
example : ExtValue.utf8Decode ([225, 144, 243, 143, 244, 128].map Char.ofNat) = ([65533, 65533, 65533].map Char.ofNat) := by decide +kernel
example : ExtValue.utf8Decode ([245, 191, 240, 243, 237, 224].map Char.ofNat) = ([65533, 65533, 65533, 65533, 65533, 65533].map Char.ofNat) := by decide +kernel
example : ExtValue.utf8Decode ([239, 244, 239, 225, 223, 193].map Char.ofNat) = ([65533, 65533, 65533, 65533, 65533, 65533].map Char.ofNat) := by decide +kernel
example : ExtValue.utf8Decode ([160, 193, 143, 244, 223, 241].map Char.ofNat) = ([65533, 65533, 65533, 65533, 65533, 65533].map Char.ofNat) := by decide +kernel
example : ExtValue.utf8Decode ([240, 224, 239, 223, 245, 143].map Char.ofNat) = ([65533, 65533, 65533, 65533, 65533, 65533].map Char.ofNat) := by decide +kernel
example : ExtValue.utf8Decode ([144, 241, 237, 160, 224, 159].map Char.ofNat) = ([65533, 65533, 65533, 65533, 65533, 65533].map Char.ofNat) := by decide +kernel
example : ExtValue.utf8Decode ([240, 237, 128, 143, 243, 244].map Char.ofNat) = ([65533, 53263, 65533, 65533].map Char.ofNat) := by decide +kernel
example : ExtValue.utf8Decode ([224, 224, 225, 245, 240, 244].map Char.ofNat) = ([65533, 65533, 65533, 65533, 65533, 65533].map Char.ofNat) := by decide +kernel
example : ExtValue.utf8Decode ([239, 143, 143, 194, 240, 143].map Char.ofNat) = ([62415, 65533, 65533, 65533].map Char.ofNat) := by decide +kernel
example : ExtValue.utf8Decode ([128, 223, 244, 239, 223, 236].map Char.ofNat) = ([65533, 65533, 65533, 65533, 65533, 65533].map Char.ofNat) := by decide +kernel
example : ExtValue.utf8Decode ([225, 65, 239, 225, 160, 245].map Char.ofNat) = ([65533, 65, 65533, 65533, 65533].map Char.ofNat) := by decide +kernel
example : ExtValue.utf8Decode ([144, 240, 128, 191, 223, 159].map Char.ofNat) = ([65533, 65533, 65533, 65533, 2015].map Char.ofNat) := by decide +kernel
example : ExtValue.utf8Decode ([193, 236, 236, 240, 143, 160].map Char.ofNat) = ([65533, 65533, 65533, 65533, 65533, 65533].map Char.ofNat) := by decide +kernel
example : ExtValue.utf8Decode ([239, 236, 243, 194, 159, 237].map Char.ofNat) = ([65533, 65533, 65533, 159, 65533].map Char.ofNat) := by decide +kernel
example : ExtValue.utf8Decode ([243, 194, 237, 225, 236, 193].map Char.ofNat) = ([65533, 65533, 65533, 65533, 65533, 65533].map Char.ofNat) := by decide +kernel
example : ExtValue.utf8Decode ([159, 143, 160, 159, 193, 193].map Char.ofNat) = ([65533, 65533, 65533, 65533, 65533, 65533].map Char.ofNat) := by decide +kernel
example : ExtValue.utf8Decode ([65, 240, 244, 160, 194, 223].map Char.ofNat) = ([65, 65533, 65533, 65533, 65533, 65533].map Char.ofNat) := by decide +kernel
example : ExtValue.utf8Decode ([65, 159, 237, 243, 225, 245].map Char.ofNat) = ([65, 65533, 65533, 65533, 65533, 65533].map Char.ofNat) := by decide +kernel
example : ExtValue.utf8Decode ([244, 224, 159, 241, 245, 128].map Char.ofNat) = ([65533, 65533, 65533, 65533, 65533, 65533].map Char.ofNat) := by decide +kernel
example : ExtValue.utf8Decode ([239, 243, 236, 236, 236, 236].map Char.ofNat) = ([65533, 65533, 65533, 65533, 65533, 65533].map Char.ofNat) := by decide +kernel
example : ExtValue.utf8Decode ([144, 240, 236, 128, 191, 143].map Char.ofNat) = ([65533, 65533, 49215, 65533].map Char.ofNat) := by decide +kernel
example : ExtValue.utf8Decode ([191, 239, 160, 144, 224, 245].map Char.ofNat) = ([65533, 63504, 65533, 65533].map Char.ofNat) := by decide +kernel

/-! ## `str.encode("utf-8")` -/

example : ExtValue.utf8 ([97, 233, 25991, 128512, 127, 128, 2047, 2048, 55295, 57344, 65535, 65536, 1114111].map Char.ofNat) = ([97, 195, 169, 230, 150, 135, 240, 159, 152, 128, 127, 194, 128, 223, 191, 224, 160, 128, 237, 159, 191, 238, 128, 128, 239, 191, 191, 240, 144, 128, 128, 244, 143, 191, 191].map Char.ofNat) := by decide +kernel

/-! ## `unquote` of text -/

example : ExtValue.unquoteText ([233, 37, 67, 51, 37, 65, 57, 120].map Char.ofNat) = ([233, 233, 120].map Char.ofNat) := by decide +kernel
example : ExtValue.unquoteText ([37, 69, 54, 37, 57, 54, 233, 37, 56, 55].map Char.ofNat) = ([65533, 233, 65533].map Char.ofNat) := by decide +kernel
example : ExtValue.unquoteText ([37, 102, 102, 37, 52, 49].map Char.ofNat) = ([65533, 65].map Char.ofNat) := by decide +kernel
example : ExtValue.unquoteText ([25991, 37].map Char.ofNat) = ([25991, 37].map Char.ofNat) := by decide +kernel
example : ExtValue.unquoteText ([97, 37, 50].map Char.ofNat) = ([97, 37, 50].map Char.ofNat) := by decide +kernel
example : ExtValue.unquoteText ([37, 122, 122, 37, 52, 49].map Char.ofNat) = ([37, 122, 122, 65].map Char.ofNat) := by decide +kernel

/-! ## `base64` -/

example : Base64.Spec.encode ([].map Char.ofNat) = [] := by decide +kernel
example : Base64.Spec.encode ([102].map Char.ofNat) = "Zg==".toList := by decide +kernel
example : Base64.Spec.encode ([102, 111].map Char.ofNat) = "Zm8=".toList := by decide +kernel
example : Base64.Spec.encode ([102, 111, 111].map Char.ofNat) = "Zm9v".toList := by decide +kernel
example : Base64.Spec.encode ([102, 111, 111, 98].map Char.ofNat) = "Zm9vYg==".toList := by decide +kernel
example : Base64.Spec.encode ([255, 254, 0].map Char.ofNat) = "//4A".toList := by decide +kernel
example : Base64.decode [] = some ([].map Char.ofNat) := by decide +kernel
example : Base64.decode "Zg==".toList = some ([102].map Char.ofNat) := by decide +kernel
example : Base64.decode "Zg=".toList = none := by decide +kernel
example : Base64.decode "Zg".toList = none := by decide +kernel
example : Base64.decode "Zm9v".toList = some ([102, 111, 111].map Char.ofNat) := by decide +kernel
example : Base64.decode "Zm9v\n".toList = some ([102, 111, 111].map Char.ofNat) := by decide +kernel
example : Base64.decode "Z m 9 v".toList = some ([102, 111, 111].map Char.ofNat) := by decide +kernel
example : Base64.decode "====".toList = some ([].map Char.ofNat) := by decide +kernel
example : Base64.decode "Zg==Zg==".toList = some ([102].map Char.ofNat) := by decide +kernel
example : Base64.decode "Z".toList = none := by decide +kernel
example : Base64.decode "Zm9vYg==!".toList = some ([102, 111, 111, 98].map Char.ofNat) := by decide +kernel
example : Base64.decode "=Zg=".toList = none := by decide +kernel
example : Base64.decode "Zh==".toList = some ([102].map Char.ofNat) := by decide +kernel
example : Base64.decode "Z===".toList = none := by decide +kernel

/-! ## `html.escape` -/

example : DebugPage.escape "<a href=\"x\">&'</a>".toList = "&lt;a href=&quot;x&quot;&gt;&amp;&#x27;&lt;/a&gt;".toList := by decide +kernel
example : DebugPage.escape "&amp;".toList = "&amp;amp;".toList := by decide +kernel
example : DebugPage.escape [] = [] := by decide +kernel

end Verif.Conformance
