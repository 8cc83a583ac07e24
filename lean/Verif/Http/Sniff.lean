import Verif.Http.Server
/-!
# Model of the type of the page

The handler sets no Content-Type and writes the whole page with one call of `Write`
(pkg/http/http.go:25-26: `io.Copy` uses `WriteTo` of the copied buffer), so net/http finds the type with
`DetectContentType` (net/http/sniff.go of Go 1.23) of what is written. The signatures are tried one
after the other.
-/

namespace SMC.Http

/-- `http.isWS`, called for pkg/http/http.go:26 -/
def isWS (b : UInt8) : Bool := b = 0x09 ∨ b = 0x0a ∨ b = 0x0c ∨ b = 0x0d ∨ b = 0x20

/-- `http.isTT`, called for pkg/http/http.go:26 -/
def isTT (b : UInt8) : Bool := b = 0x20 ∨ b = 0x3e

/-- The kinds of signatures of net/http/sniff.go, tried for pkg/http/http.go:26. -/
inductive Sig where
  | html (h : Bytes)
  | masked (mask pat : Bytes) (skipWS : Bool) (ct : Bytes)
  | exact (sig ct : Bytes)
  | mp4
  | text
deriving DecidableEq

/-- `htmlSig.match` after the length check, called for pkg/http/http.go:26: the letters of `h` match in
upper and lower case, a blank or `>` is next. -/
def htmlMatch : Bytes → Bytes → Bool
  | [], d :: _ => isTT d
  | b :: h, d :: data => (if 0x41 ≤ b ∧ b ≤ 0x5a then d &&& 0xdf else d) = b && htmlMatch h data
  | _, [] => false

/-- `maskedSig.match` after the check of the lengths of mask and pattern, called for pkg/http/http.go:26 -/
def maskMatch : Bytes → Bytes → Bytes → Bool
  | m :: mask, p :: pat, d :: data => d &&& m = p && maskMatch mask pat data
  | _ :: _, _ :: _, [] => false
  | _, _, _ => true

/-- `exactSig.match`, called for pkg/http/http.go:26 -/
def exactMatch (sig data : Bytes) : Bool := sig.isPrefixOf data

/-- `mp4Sig.match`, called for pkg/http/http.go:26. The brand at 12 is skipped. -/
def mp4Match (data : Bytes) : Bool :=
  if data.length < 12 then false
  else
    let boxSize := (data.take 4).foldl (fun n b => n * 256 + b.toNat) 0
    if data.length < boxSize ∨ boxSize % 4 ≠ 0 then false
    else if (data.drop 4).take 4 ≠ go! "ftyp" then false
    else (List.range (boxSize / 4)).any fun i => 2 ≤ i && i ≠ 3 && (data.drop (4 * i)).take 3 = go! "mp4"

/-- The bytes that do not occur in text, `textSig.match`, called for pkg/http/http.go:26. -/
def binaryByte (b : UInt8) : Bool := b ≤ 0x08 ∨ b = 0x0b ∨ (0x0e ≤ b ∧ b ≤ 0x1a) ∨ (0x1c ≤ b ∧ b ≤ 0x1f)

/-- `sniffSig.match`, called for pkg/http/http.go:26: the type, if the signature matches; `rest` is `data` from the first
character on that is no white space. -/
def Sig.match (data rest : Bytes) : Sig → Option Bytes
  | .html h => if htmlMatch h rest then some (go! "text/html; charset=utf-8") else none
  | .masked mask pat skipWS ct => if maskMatch mask pat (if skipWS then rest else data) then some ct else none
  | .exact sig ct => if exactMatch sig data then some ct else none
  | .mp4 => if mp4Match data then some (go! "video/mp4") else none
  | .text => if rest.any binaryByte then none else some (go! "text/plain; charset=utf-8")

/-- `http.sniffSignatures`, tried for pkg/http/http.go:26 -/
def signatures : List Sig :=
  [.html (go! "<!DOCTYPE HTML"), .html (go! "<HTML"), .html (go! "<HEAD"), .html (go! "<SCRIPT"), .html (go! "<IFRAME"),
   .html (go! "<H1"), .html (go! "<DIV"), .html (go! "<FONT"), .html (go! "<TABLE"), .html (go! "<A"), .html (go! "<STYLE"),
   .html (go! "<TITLE"), .html (go! "<B"), .html (go! "<BODY"), .html (go! "<BR"), .html (go! "<P"), .html (go! "<!--"),
   .masked (hex! "ff ff ff ff ff") (go! "<?xml") true (go! "text/xml; charset=utf-8"),
   .exact (go! "%PDF-") (go! "application/pdf"),
   .exact (go! "%!PS-Adobe-") (go! "application/postscript"),
   .masked (hex! "ff ff 00 00") (hex! "fe ff 00 00") false (go! "text/plain; charset=utf-16be"),
   .masked (hex! "ff ff 00 00") (hex! "ff fe 00 00") false (go! "text/plain; charset=utf-16le"),
   .masked (hex! "ff ff ff 00") (hex! "ef bb bf 00") false (go! "text/plain; charset=utf-8"),
   .exact (hex! "00 00 01 00") (go! "image/x-icon"),
   .exact (hex! "00 00 02 00") (go! "image/x-icon"),
   .exact (go! "BM") (go! "image/bmp"),
   .exact (go! "GIF87a") (go! "image/gif"),
   .exact (go! "GIF89a") (go! "image/gif"),
   .masked (hex! "ff ff ff ff 00 00 00 00 ff ff ff ff ff ff") (go! "RIFF" ++ zeros 4 ++ go! "WEBPVP") false (go! "image/webp"),
   .exact (0x89 :: go! "PNG" ++ hex! "0d 0a 1a 0a") (go! "image/png"),
   .exact (hex! "ff d8 ff") (go! "image/jpeg"),
   .masked (hex! "ff ff ff ff 00 00 00 00 ff ff ff ff") (go! "FORM" ++ zeros 4 ++ go! "AIFF") false (go! "audio/aiff"),
   .masked (hex! "ff ff ff") (go! "ID3") false (go! "audio/mpeg"),
   .masked (hex! "ff ff ff ff ff") (go! "OggS" ++ [0]) false (go! "application/ogg"),
   .masked (hex! "ff ff ff ff ff ff ff ff") (go! "MThd" ++ hex! "00 00 00 06") false (go! "audio/midi"),
   .masked (hex! "ff ff ff ff 00 00 00 00 ff ff ff ff") (go! "RIFF" ++ zeros 4 ++ go! "AVI ") false (go! "video/avi"),
   .masked (hex! "ff ff ff ff 00 00 00 00 ff ff ff ff") (go! "RIFF" ++ zeros 4 ++ go! "WAVE") false (go! "audio/wave"),
   .mp4,
   .exact (hex! "1a 45 df a3") (go! "video/webm"),
   .masked (zeros 34 ++ hex! "ff ff") (zeros 34 ++ go! "LP") false (go! "application/vnd.ms-fontobject"),
   .exact (hex! "00 01 00 00") (go! "font/ttf"),
   .exact (go! "OTTO") (go! "font/otf"),
   .exact (go! "ttcf") (go! "font/collection"),
   .exact (go! "wOFF") (go! "font/woff"),
   .exact (go! "wOF2") (go! "font/woff2"),
   .exact (hex! "1f 8b 08") (go! "application/x-gzip"),
   .exact (go! "PK" ++ hex! "03 04") (go! "application/zip"),
   .exact (go! "Rar!" ++ hex! "1a 07 00") (go! "application/x-rar-compressed"),
   .exact (go! "Rar!" ++ hex! "1a 07 01 00") (go! "application/x-rar-compressed"),
   .exact (0x00 :: go! "asm") (go! "application/wasm"),
   .text]

/-- `http.DetectContentType`, called for pkg/http/http.go:26 -/
def detectType (data : Bytes) : Bytes :=
  let data := data.take 512
  (signatures.findSome? fun s => s.match data (data.dropWhile isWS)).getD (go! "application/octet-stream")

/-- The Content-Type of the response of pkg/http/http.go:24-34 with the page `w`; an empty page has none. -/
def contentType (w : Bytes) : Option Bytes := if w = [] then none else some (detectType w)

end SMC.Http
