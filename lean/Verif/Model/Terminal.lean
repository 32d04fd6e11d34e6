import Verif.Model.FloatCode

/-!
# The characters that are printed

`Model/Visualization.lean` prints abstract tokens. Here are the colour schemes (`cube_n/visualization/mod.rs:128-158`) with any `f32`
components, and the characters that are written for each token.

The escape sequences are those of `crossterm` 0.27.0 (external; on terminals that understand them): `SetBackgroundColor` of an RGB
colour is `ESC [ 48;2;r;g;b m`, or `ESC [ m` if the environment variable `NO_COLOR` is set and not empty (parameter `noColor`);
`ResetColor` is `ESC [ 0 m`.
-/

namespace Barbarosa

/-- `palette::Srgb`, used in `cube_n/visualization/mod.rs:46,145-156` -/
structure Srgb where
  red : F32
  green : F32
  blue : F32
  deriving DecidableEq

/-- `cube_n/visualization/mod.rs:128-131`: the array of six colours -/
structure Colorscheme (C : Type) where
  data : Fin 6 → C

namespace Colorscheme

variable {C : Type}

/-- `cube_n/visualization/mod.rs:134-137` -/
def new (data : Fin 6 → C) : Colorscheme C := ⟨data⟩

/-- `cube_n/visualization/mod.rs:139-142` -/
def get (s : Colorscheme C) (f : Face) : C := s.data ⟨f.index, f.index_lt⟩

/-- `cube_n/visualization/mod.rs:145-158`; `DEFAULT_SCHEME` has the literals, in thousandths -/
def default : Colorscheme Srgb :=
  ⟨fun i =>
    let t := DEFAULT_SCHEME[i.val]'(by simp [DEFAULT_SCHEME])
    ⟨Fl.lit binary32 (t.1 / 1000), Fl.lit binary32 (t.2.1 / 1000), Fl.lit binary32 (t.2.2 / 1000)⟩⟩

end Colorscheme

/-- `(x * 255.0) as u8`, `cube_n/visualization/mod.rs:51-53` -/
def byteOf (x : F32) : Nat := ((x.mul (Fl.lit binary32 255)).toInt 0 255).toNat

/-- `crossterm::style::Color::Rgb` in `cube_n/visualization/mod.rs:50-54` -/
structure Rgb where
  r : Nat
  g : Nat
  b : Nat
  deriving DecidableEq, Repr

/-- `cube_n/visualization/mod.rs:50-54` -/
def Srgb.toRgb (c : Srgb) : Rgb := ⟨byteOf c.red, byteOf c.green, byteOf c.blue⟩

/-- the escape character, first of every sequence in `cube_n/visualization/mod.rs:56-58` -/
def ESC : Char := Char.ofNat 27

/-- `SetBackgroundColor(color)` as text, `cube_n/visualization/mod.rs:56,58` -/
def setBackground (noColor : Bool) (c : Rgb) : List Char :=
  [ESC, '['] ++
    (if noColor then [] else
      ['4', '8', ';', '2', ';'] ++ Nat.toDigits 10 c.r ++ [';'] ++ Nat.toDigits 10 c.g ++ [';'] ++ Nat.toDigits 10 c.b) ++ ['m']

/-- `ResetColor` as text, `cube_n/visualization/mod.rs:58` -/
def resetColor : List Char := [ESC, '[', '0', 'm']

/-- `cube_n/visualization/mod.rs:44-59` -/
def Color.write (noColor : Bool) (scheme : Colorscheme Srgb) (c : Color) : List Char :=
  setBackground noColor (scheme.get c.face).toRgb ++ [' ', ' '] ++ resetColor

/-- what is written for a token: `cube_n/visualization/mod.rs:44-59`, `write!(f, "  ")` and `writeln!(f)` in
`cube_n/visualization/unfolded/mod.rs:115-125,204-240` -/
def Tok.write (noColor : Bool) (scheme : Colorscheme Srgb) : Tok → List Char
  | .cell c => c.write noColor scheme
  | .gap => [' ', ' ']
  | .newline => ['\n']

/-- `cube_n/visualization/unfolded/mod.rs:196-243` with the given colour scheme -/
def Unfolded.text {N : Nat} (noColor : Bool) (scheme : Colorscheme Srgb) (u : Unfolded N) : List Char :=
  u.write.flatMap (Tok.write noColor scheme)

/-- `Display for Cube3`, `cube_n/visualization/mod.rs:160-165`, `unfolded/mod.rs:271-275` (there with the default scheme); `none` is a panic -/
def Cube3.text? (noColor : Bool) (scheme : Colorscheme Srgb) (c : Cube3) : Option (List Char) :=
  (Unfolded.ofCube3? c).map (Unfolded.text noColor scheme)

/-- `cube_n/visualization/unfolded/mod.rs:167-170` -/
def Unfolded.iter {N : Nat} (u : Unfolded N) : List (Face × Square N) := Face.all.zip (List.ofFn u)

end Barbarosa
