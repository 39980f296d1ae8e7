import Verif.Example.Web

/-!
# The example application: pages

`/repo/example/templates/`. Starlette 0.14.2 renders the templates with Jinja2 and `autoescape=True`; line breaks around blocks are
kept, one line break at the end of a template is dropped.
-/

namespace Psion.Example

open Psion

/-- One character of `markupsafe.escape`. -/
def escapeChar (c : Nat) : PyStr :=
  if c = 38 then py! "&amp;"
  else if c = 62 then py! "&gt;"
  else if c = 60 then py! "&lt;"
  else if c = 39 then py! "&#39;"
  else if c = 34 then py! "&#34;"
  else [c]

/-- `markupsafe.escape`: what `{{ s }}` writes for a text. -/
def escape (s : PyStr) : PyStr := s.flatMap escapeChar

/-- What `{{ x }}` writes for a text or `None`. -/
def written : Option PyStr → PyStr
  | none => py! "None"
  | some s => escape s

/-- `/repo/example/templates/base.j2:1-6`. -/
def baseStart : PyStr :=
  py! "<!DOCTYPE html>\n<html lang=\"en-us\">\n<head>\n    <meta charset=\"UTF-8\">\n" ++
  py! "    <meta name=\"viewport\" content=\"width=device-width, initial-scale=1, shrink-to-fit=no\">\n\n"

/-- `/repo/example/templates/base.j2:9`. -/
def baseLink : PyStr :=
  py! "\n\n    <link href=\"https://cdn.jsdelivr.net/npm/bootstrap@5.0.0-beta1/dist/css/bootstrap.min.css\" rel=\"stylesheet\" " ++
  py! "integrity=\"sha384-giJF6kkoqNQ00vy+HMDP7azOuL0xtbfIcaT9wjKHr8RbDVddVHyTfAAsrekwKmP1\" crossorigin=\"anonymous\">\n    "

/-- `/repo/example/templates/base.j2:11-14`. -/
def baseBody : PyStr := py! "\n</head>\n\n<body>\n    <div class=\"container-fluid\">\n        "

/-- `/repo/example/templates/base.j2:16-21`; the block `scripts` is empty in all templates. -/
def baseEnd : PyStr :=
  py! "\n    </div>\n\n    <script src=\"https://cdn.jsdelivr.net/npm/bootstrap@5.0.0-beta1/dist/js/bootstrap.bundle.min.js\" " ++
  py! "integrity=\"sha384-ygbV9kiqUc6oa4msXn9868pTtWMgiQaeYH7/t7LECLbyPA2x65Kgf80OJFdroafW\" crossorigin=\"anonymous\"></script>\n" ++
  py! "    \n</body>\n</html>"

/-- `/repo/example/templates/base.j2` with the title and the blocks `stylesheets` and `main_content`. -/
def basePage (title stylesheets main : PyStr) : PyStr :=
  baseStart ++ (py! "    <title>" ++ escape title ++ py! " - Psion</title>") ++ baseLink ++ stylesheets ++ baseBody ++ main ++ baseEnd

/-- `/repo/example/templates/index.j2`, shown by `home`, `/repo/example/views/__init__.py:9-10`. -/
def homePage : PyStr := basePage (py! "Home") [] (py! "\n    <p>Hello, World!</p>\n")

/-- `/repo/example/templates/error.j2:3-7`. -/
def errorMain (description error : Option PyStr) : PyStr :=
  py! "\n<strong>Description: </strong><span>" ++ written description ++
    py! "</span>\n<br>\n<strong>Error code: </strong><span>" ++ written error ++ py! "</span>\n"

/-- `ErrorEndpoint.get`, `/repo/example/views/connect.py:27-39`. -/
def errorPage (req : WebRequest) : PyStr :=
  basePage (py! "Error") []
    (errorMain (Dict.get (queryParams req) (py! "error_description")) (Dict.get (queryParams req) (py! "error")))

/-- What the form library contributes to the login page: the markup of the fields, and their error messages. -/
structure FormText where
  csrf : PyStr
  email : PyStr
  emailErrors : List PyStr
  password : PyStr
  passwordErrors : List PyStr

/-- The loops over error messages, `/repo/example/templates/login.j2:23-25` and `31-33`. -/
def errorLines (id : PyStr) (errors : List PyStr) : PyStr :=
  errors.flatMap fun e =>
    py! "\n                <small id=\"" ++ id ++ py! "\" class=\"form-text text-danger\">" ++ escape e ++ py! "</small>\n                "

/-- `/repo/example/templates/login.j2:4`, with `url_for` of the framework. -/
def loginStyles (req : WebRequest) : PyStr :=
  py! "\n<link rel=\"stylesheet\" type=\"text/css\" href=\"" ++ escape (req.site ++ py! "/static/css/forms.css") ++ py! "\">\n"

/-- `/repo/example/templates/login.j2:8-10`. -/
def loginStart : PyStr :=
  py! "\n<div class=\"row align-items-center background\">\n    <div class=\"col-1 col-md-3 col-lg-4 col-xl-5\"></div>\n" ++
  py! "    <div class=\"col-10 col-md-6 col-lg-4 col-xl-2 jumbotron form-wrapper\">\n"

/-- `/repo/example/templates/login.j2:11-16`. -/
def loginForm (action : PyStr) (message : Option PyStr) : PyStr :=
  py! "        <form action=\"" ++ escape action ++ py! "\" method=\"post\" class=\"mb-4\">\n" ++
  py! "            <h1 class=\"mb-5 text-center\">Login</h1>\n\n            " ++
  (match message with
    | none => []
    | some m => py! "\n            <div class=\"alert alert-danger mb-4\">" ++ escape m ++ py! "</div>\n            ")

/-- `/repo/example/templates/login.j2:18-40`. -/
def loginFields (f : FormText) : PyStr :=
  py! "\n\n            " ++ f.csrf ++
  py! "\n\n            <div class=\"form-group mb-4\">\n                " ++ f.email ++
  py! "\n                <small id=\"email-help\" class=\"form-text text-muted\">Example: johndoe@gmail.com</small>\n                " ++
  errorLines (py! "email-error") f.emailErrors ++
  py! "\n            </div>\n\n            <div class=\"form-group mb-4\">\n                " ++ f.password ++
  py! "\n                <small id=\"password-help\" class=\"form-text text-muted\">Between 8 and 64 characteres.</small>\n" ++
  py! "                " ++ errorLines (py! "password-error") f.passwordErrors ++
  py! "\n            </div>\n\n            <button type=\"submit\" class=\"btn login-btn form-btn text-light\">Login</button>\n" ++
  py! "        </form>\n    </div>\n    <div class=\"col-1 col-md-3 col-lg-4 col-xl-5\"></div>\n</div>\n"

/-- `/repo/example/templates/login.j2`, shown by `/repo/example/views/auth.py:27-35`, `44-52`, `57-66` and `69-78`: the form is sent
to `str(request.url)`. -/
def loginPage (f : FormText) (req : WebRequest) (message : Option PyStr) : PyStr :=
  basePage (py! "Login") (loginStyles req) (loginStart ++ loginForm req.url message ++ loginFields f)

/-- The text of a page that is shown to the request; `none` for the answers of the framework itself. -/
def pageText (f : FormText) (req : WebRequest) : Page → Option PyStr
  | .home => some homePage
  | .login => some (loginPage f req none)
  | .invalidCredentials => some (loginPage f req (some (py! "Invalid Credentials.")))
  | .error => some (errorPage req)
  | .badRequest | .methodNotAllowed => none

end Psion.Example
