# Formal model of jonnyschaefer/radolan in Lean 4

## Layout

* `lean/Verif/Go/*`     – the fragments of Go and its standard library the code relies on: wrapped 64-bit ints,
  `make`, slices, UTF-8 (`Basic`), IEEE binary32/binary64 (`Float`, `Round`), `fmt.Sscanf` (`Scan`), `time.Parse`
  and dates (`Time`), `bufio.Reader` and `io.ReadFull` (`Bufio`).
* `lean/Verif/Model/*`  – the code of /repo, function by function, each definition citing file:lines.
* `lean/Verif/Spec/*`   – small independent specifications the theorems are stated with.
* `lean/Verif/Lemmas/*` – helper lemmas.
* `lean/Verif/Props/*`  – the property theorems `C<nn>_...`, each beside a concrete example meeting its hypotheses.
* `properties.jsonl`    – the properties in English (generated by `tools/mkprops.py`).
* `MANIFEST.json`       – property → theorems (generated by `tools/mkmanifest.py`).
* `AXIOMS.md`           – axioms of each property theorem (generated by `tools/mkaxioms.py`).
* `seeded/LOG.jsonl`    – wrong programs tried against the theorems.

## Per property: what is modelled and how it is proved

| id | what is modelled | how it is proved |
|----|------------------|------------------|
| C01 | AtZ with slice indexing that panics; NewComposite with partially filled result on error | shape invariant carried through every parse stage |
| C02 | AtZ | case analysis + shape invariant |
| C03 | header parser, `make` (negative / >2^48 bytes panics), arrangeData, all as outcome `ret/panic` | exact characterisation by stage-wise analysis; witness of a panicking header |
| C04 | all error exits with the partial composite | frame lemma per stage (Dz, DataZ, HasProjection untouched) |
| C05, C06 | parseData, arrangeData | list-length lemmas, invariants |
| C07, C08, C13 | readers and decoders on the byte list | induction over rows; flip lemma; pixel formula stated on byte offsets |
| C09, C10 | float32/float64 soft-float on rationals, `math.Pow10` tables | rounding-error and monotonicity lemmas |
| C11, C12 | decodeRunlength | encoder and line grammar in Spec; induction over rows; invariant of the decoder loop |
| C14 | identifyEncoding with wrapped int arithmetic | case analysis |
| C15, C16 | byte-list reader | every reader primitive depends on a prefix only ("local"), lifted through the pipeline |
| C17 | bufio.Reader over an arbitrary io.Reader state machine, parser in reader-passing style (`Model/Reader`) | simulation between reader states and remaining bytes; termination measure (bytes left, idle reads) |
| C18-C20 | splitHeader over decoded runes | induction over fields (loop invariant) |
| C21-C23 | time.Parse of layout 0215040106, Date, Duration arithmetic with wrap-around | round trip with formatter; independent calendar spec |
| C24-C27 | parseHeader with Sscanf | stage lemmas, decimal round trips |
| C28-C30 | NewComposites over tar events, sort.Slice by contract | permutation / sortedness / uniqueness |
| C31-C33, C38 | minRes, detectGrid, calibrateProjection, Project | 2-adic argument |
| C34, C35, C36 | projection code over an abstract arithmetic, instantiated at soft-float64 (sin, cos, tan, pow as parameters) and at the reals | IEEE cancellation lemma, error bound, exact real algebra |
| C37 | same code at the reals | stereographic geometry with Mathlib |
| C39, C40 | conversion code at the reals | Mathlib rpow/logb |
| C41 | conversion at soft-float with contract of math.Pow | case analysis |
| C42-C46 | vis and the colour selection of radolan2png | float monotonicity, interval bounds |
| C47 | writer in Spec + whole pipeline | composition of all round trips |
| C48, C51 | memory behind the exported slices (`Model/Heap`): shared array of row headers, windows with offset, length, capacity | layout lemma, induction over write histories |
| C49 | mesh loops of radolan2png in float64 | kernel evaluation of the (input-independent) loops |
| C50 | convert of radolan2png without file handling | invariants of the drawing loops |
| C52 | projection code at the reals, all constants of the code | rational enclosures of sine, cosine, log, exp at the documented points (`Lemmas/TrigNum`, generated `Lemmas/RefPoints`) |
| C53 | projection code at the reals | derivatives with Mathlib |
| C54 (and C34-C36 without conditions) | projection code at soft-float64, accuracy contract for the math library (`Spec/MathLib`) | forward error analysis, operation by operation (`Lemmas/FloatReal`, `Lemmas/FloatPlane`) |
| C55 | main and convert of radolan2png as a list of effects on a file system (`Model/CliIO`); the operating system and png.Encode are parameters | case analysis of the run into silent effects, creation, appends; every prefix of the effects is evaluated |
| C56 | the printed arguments Dx*Rx, Dy*Ry in soft-float64 | error bounds of C54 and C52, rounding to tenths |
| C57 | conversion.go at soft-float64/float32 with the contract `Spec.AccuratePowLog` | error analysis of logarithms (`Lemmas/FloatLog`); exact round trip because distinct float32 numbers are further apart than the error |
| C58 | projection in exact arithmetic | displacement in closed form; algebra of the stereographic projection |
| C59 | projection in exact arithmetic | surjectivity of the polar radius (arctangent on the sphere, intermediate value theorem on the ellipsoid), argument of a complex number; uniqueness is C37 |
| C60 | NewComposite on a bufio.Reader, with the reader position after the call | simulation of reader operations by byte sequences (Lemmas/Reader), locality of the parser |
| C61 | NewComposites on an arbitrary tar state machine | induction over the entries; the simulation of C60 with the entries to come as part of the state |
| C62 | NewComposite on a reader that stalls | the simulation of C60 with a relation for stalled readers; non-termination of io.ReadFull by partial correctness of its fixpoint |
| C63 | NewComposite on files in the format of Spec/Header | both directions: the scanner functions characterised exactly on any text (Lemmas/Accept), then field by field; data section through C12/C14 lemmas |
| C64 | colour functions chosen by radolan2png, applied to float64(pixel) | float32 spacing (10^-9 relative) exceeds the logarithm's error, so comparisons of logarithms agree with comparisons of values; C43-C46; error bounds for the position in the gradient |
| C65 | vis.Heatmap at soft-float64 against the HSL colour space over the reals (`Spec/Hue`) | rounding errors of every intermediate result; the code's sector table is exact arithmetic up to those errors; channels are Lipschitz in the hue, so neighbouring sectors agree at their boundary |
| C66 | the eight package variables of vis.go:14-45 as functions on soft-float64, against the gradient of `Spec/Hue` and plain brightness | the lemmas behind C43 - C45, C64 and C65 for float64 arguments; logarithms separated by a relative distance of 10^-9 |
| C67 | the projection code of Model/Projection interpreted over sets of intermediate results (`Spec/Fusion`), exact or rounded after every operation | the model code is generic in the arithmetic; `Tracks` (each operation within one rounding error) is proved for float64 and for the set arithmetic, the error analysis once for any `Tracks` |
| C68 | `Spec/Picture`: a writer for run-length coded pictures (composite with BG field, local strip and volume products without); whole parser model | header readable (C63 lemmas) with blank lines as seed, then C11 round trip with the level table, C24 dimensions, C06 layers, C02 access |
| C69 | parser model against well-formed field lists | the header parser reads only known keys, bytes 0..8 and 13..17, and the announced length minus the header length: stage by stage congruence |
| C70 | data section semantics (`dataOf`, `rowsFrom`, `Decodes`) | swap lemma (same header, other data), position of each pixel's bytes, uniqueness of lines and of the meaning of a line |
| C71 | `toDBZ`, `toRVP6` in float32 | rounding is exact on dyadic numbers of 24 bits; triangle inequality over four roundings otherwise |
| C72 | file writer of C47, whole parser, `Cli.convert` | composition of C47, C50, C64, C65 with exact decoding (C09) and monotone decoding at the limits (C10) |
| C73 | the composite returned together with an error | the row loops stop at the first short read: induction over the rows decoded so far, `setAll` |
| C74 | `Model/Conc.lean`: NewComposite, At and AtZ as sequences of single memory accesses (allocations, loads and stores of row headers and of values) and the interleavings of any number of such programs in one memory; clients in `Props/ConcSpec.lean`, once in terms of memory accesses, once in terms of the value model | ownership: each goroutine's program is safe in the memory it owns plus the frozen memory (`Safe`, a small separation logic with framing), the ownership partition is an invariant of every step; the access-by-access NewComposite refines the value model (`safe_newComposite`); termination by the lexicographic order on the goroutines' remaining programs. Not in the shared memory, because no two goroutines can reach it: inputs, readers, strings, maps, line buffers, level tables, struct fields of a composite under construction; the package variables are never assigned after initialisation |
| C75 | the clock `Civil.tick` and the lexicographic order of civil times, `Spec/Clock.lean` | monotone day counts by induction over months and years; existence of every minute by induction over ticks |
| C76 | UTF-8 by encoding (`utf8`, `scalar`) and fields with any text (`Field.Text`, `Calm`), `Spec/Utf8.lean` | the decoder inverts the encoder, and what it accepts is an encoding; induction over the bytes of a value with an invariant on the splitter's variables: no rune crosses the end of a value, a stray capital only opens keys with a byte beyond ASCII |
| C77 | `decoded` of `Spec/Pixels.lean` for every integer precision | the float32 scale factor by kernel evaluation of math.Pow10 on -323..308 and by definition beyond; rounding error lemmas for normal and subnormal results; monotonicity of rounding |
| C78 | error texts (`Model/Errors.lean`), ordered checks (`Spec/Diagnosis.lean`) | each stage of the parser performs its checks (Hoare triples), composed along the stages and, for run-length data, along the lines by induction; uniqueness of the first failing check gives the converse |
| C79 | table of the border (`Model/BorderTable.lean`, generated), float projection | monotonicity of the projection in latitude and longitude reduces 12492 points to 16 enclosing points with machine-checked enclosures; a kernel-evaluated test places the table between them; C54 transfers to float64, C50 to pixels |
| C80 | float projection, real projection | C59 gives the geographic point of the centre of a pixel; enclosures of the grid corners bound its latitude and longitude; it is rounded to float64 and C54 bounds the distance of its image from the centre |
| C81 | header, data | an accepted parse consumed the header and the rows; every row costs at least one byte; a header of empty level table and any grid is readable (C63) and empty lines are complete |
| C82 | vis, Cli | the colour functions are evaluated to the set of all results of rounded, unrounded or once rounded operations (Spec/FusedColors); every member is within an error bound of the exact number, carried through all operations including the jump of the hue sector, where both neighbouring assignments agree |
| C83 | Cli, vis, runlength, header | composition of C68 (round trip of a written run-length file), C23 (no interval), C50 (drawing) and C64/C65 (colours); the nearest float32 of a level in tenths stays on the right side of every representable threshold, and 0.1 is rounded up |
| C84 | conversion, littleendian, singlebyte, Cli, vis | C47 and C50 give the decoded value of the pixel, C64/C65 its colour; two different multiples of the last place differ by more than the error bound of C09, and a threshold that is such a multiple at one of the seven possible precisions is decoded exactly (kernel evaluation of these finitely many numbers) |
| C85 | projection*, radolan, data | C67 bounds the distance of every permitted result of Project from the exact projection, the bounds on the plane coordinates keep int() in range, truncation of a number that near is the pixel; C47 gives the value of the pixel, C02 the NaN outside, C80 a place for every pixel; pictures by C68 |
| C86 | radolan, projection*, conversion | enclosures of the plane coordinates of Berlin (rational bounds of sine and cosine checked by the kernel) place it in its pixel with a margin above the error of C67; C47 gives the value of the pixel, C09 its exactness, C57 the rate, C41 the NaN |
| C87 | conversion, singlebyte, littleendian | `Spec/FusedConversion`: the same code evaluated in the arithmetic of sets of results of `Spec/Fusion`, pixels in a float32 version of it; interval arguments of C57 and C09 carried out for every member of the set |
| C88 | radolan2png (output), catalog | `Go/Text`: the parts of fmt, strconv and time that print (Time.String with the cycle arithmetic of absDate, %.1f); `Model/Printout`: text of every event; the printed date inverts the day count (case split on cycles, table of days), then C47, C68, C56; text injective digit by digit |
| C89 | projection | polar form of the exact plane coordinates (the pole included), carried over to float64 by C54; symmetries from those of sine and cosine |
| C90 | radolan2png (overlay), projection* | the 151 and 90 accumulated loop values are within 2e-13 degrees of the tenths (evaluated in the kernel), the radius of the polar form is Lipschitz (mean value theorem on its derivative, C53), so nearby places have nearby images; C54, truncation as in C85, C50 for the colours |
| C91 | projection* | exact distance identity of the stereographic map (C58) plus the error bounds C67 for coordinates and pixel size, reverse triangle inequality; scale bounds by monotonicity and concavity of sine; mean value theorem for the radius on [40, 60] |
| C92 | projection* | Spec/Stereographic.lean states the textbook map without reference to the model; the model run in exact real arithmetic equals it (the scale constant and the position of the pole cancel), C67 bounds the rounding. Because of C92_exact every statement about realProject (C35, C54, C67, C80, C85, C86, C89, C90) is a statement about the documented map |
| C93 | header.go, data.go, radolan.go | Spec/Reading.lean: `Chars` cuts any bytes into characters (UTF-8; a byte that begins none is one of its own), `Reads` lists the four forms of a header (fields, trailing key, no leading key, key only) with the values of its keys, `Understood` puts them together; C93_every_text / C93_one_reading: each text has exactly one reading; C93_ascii: for ASCII it is the obvious reading of bytes; C93_verdict: acceptance, panic and error text are characterised exactly by checks stated over text and values only; C93_every_input: there are no other inputs. Generalises C63 and C78 (numbers may be preceded by any Unicode white space) |
| C94 | header.go, data.go, singlebyte.go, littleendian.go, runlength.go | Spec/Content.lean: `Attributes`, `Bytewise`, `Linewise` over the reading of the header (Spec/Reading.lean); proved from the same stage lemmas as C07, C08, C12, C22-C24, for every understood header and with exact 64-bit arithmetic instead of ranges |
| C95 | radolan2png.go, radolan.go, vis.go | Spec/Status.lean: `Listed`, `Drawable`; the verdict of C93 followed through the program with its operating system (C54, C55), both directions of all three equivalences |
| C96 | radolan.go (NewComposites) over the delivered entries | Spec/ArchiveStatus.lean: `GoodEntry`, `BadEntry`, `ImpossibleEntry`, `FirstNotGood`; entry_verdict puts C93, C25 and the uniqueness of readings together, induction over the entries |
| C97 | radolan2png.go:63-98 (overlay), vis.go (colours), projection.go | Spec/FusedPicture.lean: `Draws`, `Shaded`, `PermittedPicture` let every call and pixel choose its own fusion; draws_spec by induction over the points, placed_fused from C67 (project within a billionth of the edge) and the exact places of mesh and border, C82 for the colours |
| C98 | conversion.go, singlebyte.go, littleendian.go, vis.go, radolan2png.go, projection.go | Spec/FusedFile.lean: `PermittedValue`, `ShadedFile`, `PermittedFilePicture`; at the ends of a gradient an exactness calculus (Lemmas/FusedEnds: every permitted intermediate result is exact, or rounded to something above 1), thresholds of reflectivities by enumerating the few permitted results of 67 and 215 RVP-6 units (Lemmas/FusedLinear: `Among`), the rest from C87, C82 and C97 |
| C99 | header.go (level table), fmt.Sscanf "%f", strconv.ParseFloat | `Go/ParseFloat.lean`: floatToken, underscoreOK, readFloat, convertFloat function by function; Spec/Numeral.lean: the grammar of numbers with their values; both directions for every token (Lemmas/NumeralRead, NumeralToken, NumeralConvert, FloatText), lifted to any text of at most five bytes (Lemmas/LevelText: `sscanfF_iff`) and to the table (Lemmas/LevelTable) |
| C100 | projection* | Spec/Surface.lean: principal radii, position in space and straight-line distance for sphere and ellipsoid; scale = radius of the parallel on the map by radius on the surface; its derivative is negative in closed form; distances along a meridian compared with the chord by monotonicity of suitable linear combinations of map radius and position (Cauchy's mean value argument), across meridians by the law of cosines; then C67 for the rounding |
| C101 | radolan.go:158-183 with archive/tar at the level of bytes (Model/Tar.lean: header parsing, checksum, Next, Read, discarding and padding over an arbitrary reader) | Spec/Tar.lean: the format; loop lemma for io.ReadFull/CopyN/tryReadFull on a faithful reader; the reader simulates a pure function from bytes to entries (contract of C61); that function on members, cuts and damaged headers |
| C102 | math/sin.go and math/tan.go of Go (Model/Trig.lean) as called from projection_sphere.go and projection_wgs84.go, over an abstract arithmetic so that every permitted fusion is an instance | Taylor remainder and polynomial bounds by exact rational arithmetic (Lemmas/PolyBound, TrigPoly), Cody-Waite reduction with exact first product, error tracking as for C54/C67; instantiated with the permitted evaluations |
| C103 | math/pow.go, math/log10.go and Frexp of Go (Model/Pow.lean) as called from conversion.go and projection_wgs84.go, over arbitrary Exp, Log and Sqrt | loop invariant for the squaring loop (mantissa and exponent against the logarithm of the power), logarithmic error tracking as for C57; Ln2 and Ln10 enclosed by exact series bounds (Lemmas/LnConst) |
| C104 | math/exp.go, math/exp_amd64.s and math/log.go of Go (Model/Elem.lean) over an arbitrary arithmetic, instantiated with all permitted evaluations | approximation of the exponential and of log((1+s)/(1-s)) by the polynomials of the code checked with exact polynomial arithmetic (PolyBound), exact argument reduction (products of small integers with Ln2Hi and LN2U, Frexp), error propagation through every operation |
| C105 | conversion.go and the whole of math.Pow, Log10 and Log on all float64 values (Model/Pow with the special cases of Pow, Model/Elem) | Frexp is exact on all positive numbers, products of Ln2Hi with exponents up to 1100 are exact, so the error analysis of C104 extends to all positive numbers; infinities and NaN admit only separately rounded operations, traced through the code; the constants of a relation are finite, positive and c3 > 1 by C87 |
| C106 | math/sqrt.go (Model/Sqrt: Float64bits and Float64frombits, the normalisation of denormal numbers, the loop over bits on uint64, rounding) as used by math.Pow | loop invariant ix*2^k + q^2 = M, M < (q + 2*2^k)^2, so the loop ends with the integer root and the remainder; the result is off the exact root by less than half a unit since the radicand is divisible by 4; every float64 above a power of two is a multiple of the unit, so all others are farther; the contract of C104 follows |
| C107 | compress/bzip2 (Model/Bzip2: bit reader, move to front, Huffman trees, inverse Burrows-Wheeler transform, run-length decoding, CRC, block header, symbols, streams, Read) as used by NewComposites; the format as a separate specification from the side of the compressor (Spec/Bzip2) | counting sort of the rotations gives the chain of successors; the codes of the tree tile 2^32; induction on the derivation of the move-to-front code with the position in the selectors as invariant; the CRC register is linear; a simulation relation between reader states and the data left, with C101 for the archive |
| C108 | the same model of compress/bzip2 (indices are partial, a wrong one panics); any file | an invariant of the decompressor state (positions inside the block, successors in range, trees well formed), kept by setup, readBlock and Read whatever the bits are |
| C109 | the same model of compress/bzip2; the checksums of a file as a separate specification that leaves the blocks uninterpreted (Spec/BzSums) | every routine only moves the bit reader forward; invariant of the states: if the checksums still to come are right, all are; the CRC step is injective and a burst is the same as another start of 32 zero steps |
| C110 | the same model of compress/bzip2; the condition (no read returns bytes together with an error) as a separate inductive predicate on histories of reads. It is a real condition: a truncated block whose end symbol has a code of zeros is decoded to its end behind the end of the file (C110_exception, a file of 27 bytes). As noted in Model/Bzip2, an error that came without bytes is returned again by further reads, which archive/tar does not make | the loop of Read at the end of a block is a function of the state without the block (turn); every state either yields one sequence and one error (inductive predicate, by strong induction on the bits left) or meets the exception; the relation between states and what is left is a simulation, then C101 |

## Trusted base

* Lean 4.33.0's kernel. No axioms beyond `propext`, `Classical.choice`, `Quot.sound` (see AXIOMS.md); no
  compiled evaluation is trusted (`decide +kernel` is checked by the kernel).
* That the definitions in `Go/` and `Model/` describe the code and the Go library functions it calls. This is the
  place where a human has to compare text with text; every definition cites the lines it models.

### Modelled

All of header.go, data.go, catalog.go, singlebyte.go, littleendian.go, runlength.go, conversion.go, projection.go,
projection_sphere.go, projection_wgs84.go; radolan.go (NewComposite, NewComposites from the bytes of its argument on, NewDummy, At,
AtZ, Unit.String); radolan2png/vis/vis.go (Image, Graymap, Heatmap, HeatmapReflectivity, HeatmapRadialVelocity,
Radialmap, clamp/compression functions); radolan2png.go: main and convert, including the effects on files (`Model/Cli`, `Model/CliIO`).

### Modelled by a parameter or a contract (theorems hold for every choice)

* `unicode.IsUpper` on runes ≥ 0x80: an arbitrary function in `Env`.
* `math.Sin, Cos, Tan, Pow, Log10, Log`: arbitrary functions float64 → float64 (`MathLib`); theorems needing more say
  so in a hypothesis (C41: `Pow(x, NaN) = NaN` for x ≠ 1; C54 and the `_accurate` theorems: `Spec.AccurateMath`,
  errors of at most 1e-15 (tangent 1e-14, power 5e-15) on the ranges that occur; C57: `Spec.AccuratePowLog`, 1e-13 for
  exponents up to 200; Go does not promise either) or are about the same code in exact real arithmetic. For Sin, Cos and Tan
  the hypotheses are proved of Go's code (C102, `Model/Trig`; its `trigReduce` for arguments of 2^29 and more is a parameter
  there), for Pow and Log10 they are proved of Go's code from the accuracy of Exp, Log and Sqrt (C103, `Model/Pow`; the results
  of Pow for a zero or infinite base and for an infinite exponent are a parameter there, and Go's in C105), and this accuracy
  is proved of Go's code for Exp and Log (C104, C105, `Model/Elem`; not for s390x, which has its own code). That Sqrt is rounded
  correctly (`Spec.Elem.GoElementary`) is proved of the code in software (C106, `Model/Sqrt`); of the instructions compilers
  use instead on most processors it is assumed, as IEEE 754 requires it, and then both return the same bits (`C106_hardware`).
* `sort.Slice`: any function meeting its documented contract (not assumed stable).
* conversion of NaN / out-of-range floats to ints and bytes: implementation-defined in Go, arbitrary (`Impl`).
* the table in radolan2png/borders.go: `Model/BorderTable.lean`, generated by tools/mkborders.py (12492 pairs in millionths
  of a degree); C50 and the other theorems about pictures hold for an arbitrary list of coordinates, C79 is about this one.

### Library functions modelled from the Go sources (not available in the sandbox, written from knowledge of them)

`fmt.Sscanf` for "%d", "%dx%d", "%3d%3d", "%f" (`Go/Scan`), with `strconv.ParseFloat(s, 32)`, `strconv.Atoi`, `math.Ldexp`
(`Go/ParseFloat`; the mantissa is kept whole, where the code truncates it and looks again at the dropped digits),
`time.Parse` for the layout used (`Go/Time`), bufio.Reader (`Go/Bufio`), UTF-8 decoding (`Go/Basic`), IEEE 754 arithmetic and
conversions (`Go/Float`: correctly rounded rationals), the printing functions used (`Go/Text`), archive/tar's Reader without
the PAX and GNU extensions, whose treatment is a parameter (`Model/Tar`; names and times are not kept), math.Sin, Cos and Tan (`Model/Trig`),
math.Pow, Log10, Log2 and Frexp (`Model/Pow`), math.Exp (Go and amd64) and Log (`Model/Elem`), math.Sqrt in software (`Model/Sqrt`),
compress/bzip2 (`Model/Bzip2`; tested on files written by bzip2).

### Tests of the model

`Props/Conformance` replays the test cases of the repository (header_test.go, conversion_test.go, projection_*_test.go) on
the model; they are examples, not properties.

### Simplifications

* 64-bit `int` (amd64/arm64), `make` panics above 2^48 bytes (`runtime.maxAlloc` of linux/amd64); running out of memory
  below that limit is not modelled.
* float64 operations are rounded one by one: no fused multiply-add. (Go permits FMA on arm64, ppc64le, s390x; the exact
  statements C34 - C36 fail there in principle. C67 proves the accuracy of the projection for all permitted evaluations,
  C82 the colours, C87 the conversions and decoded pixels, C97 and C98 whole pictures;
  the other float properties are for separately rounded operations.) NaN payloads are identified; signed zeros are modelled.
* Error values are identified by the place where they arise; of a message text the part before the wrapped library error
  is modelled (`Model/Errors`, C78). A read error other than io.EOF only changes the rest of the text (C17 covers arbitrary terminal errors).
* In `Model/{Header,Data,Composite}` the reader is the list of bytes still to come; C17 proves that the reader-passing
  program over a bufio.Reader (`Model/Reader`) behaves like it for every io.Reader delivering these bytes.
* Row slices are values in `Model/Data`; sharing of memory is modelled separately: in `Model/Heap`, where the contents
  of the rows are taken from the value model, and access by access, for concurrent goroutines, in `Model/Conc`.
* Goroutines interleave single accesses (sequential consistency). The Go memory model promises this for programs without
  data races, and C74 proves that there are none. Allocation takes any free address.
* PNG encoding is not modelled. Where C101 speaks of a stream, the decompressor is an arbitrary reader of the bytes of the tar
  archive; the bzip2 decompressor itself is modelled in `Model/Bzip2` (its argument is the list of bytes to come and the error after
  them, the bit accumulator is not kept) and composed with C101 in C107. In C61 the tar reader, too, is an arbitrary state machine with the methods Next and Read that meets a stated contract
  (`Spec/Session: TarContract`), and the result is a function of the contents of the entries. (The chunks png.Encode writes are a parameter of `Model/CliIO`, as is
  the success of opening, reading and creating files. Printed text is modelled in `Go/Text`, `Model/Printout`; what log.Fatal
  writes to the standard error is not.)

## Findings (behaviour a user would not expect, each with a theorem or noted in one)

1. NewComposite panics on negative or huge declared dimensions, e.g. `GP -1x 5` (C03).
2. A key without value at the end of the header silently takes the value of the preceding field (C20).
3. Rx, Ry of catalogued local products are set from the catalog and then overwritten by NaN (C38).
4. An archive with one entry of an unknown product label is rejected as a whole: ErrUnknownUnit, elsewhere only a
   warning, is fatal in NewComposites (C29).
5. A blank-padded BG field (`BG 90200` for 90 rows, 200 columns) is read as other dimensions, here 902x0 (C24).
6. A run-length line whose line number byte is 0x0A is split in two (excluded explicitly in C11).
7. A run-length offset beyond the row is accepted if no run follows (C12: `Fits`).
8. With precision -1, 818 of the 4096 raw values are not decoded to the float32 nearest to v/10 (within 2^-22: C09).
9. VV and INT fields wrap around int64 nanoseconds (C22, C23); the two-digit year may be `+k` or `-k` (C21).
10. radolan2png draws meridians at 5.1, 6.1, ..., 15.1 instead of whole degrees (C49).
11. HeatmapReflectivity is documented as 5 dBZ .. 75 dBZ but starts at 1 dBZ (C46).
12. `append(c.Data, row)` overwrites the first row of the second layer (C51).
13. Points projected to (-1, 0) are drawn in column/row 0 because the conversion to int truncates (C50: `Hits`).
14. Successive calls of NewComposite on one plain io.Reader lose data: each call reads ahead up to 4096 bytes (C60).
15. NewComposite never returns on a reader that stalls (no bytes, no error) inside binary data (C62).
16. Missing values in precipitation, reflectivity and echo top images, and negative precipitation, get a gray whose
    brightness is whatever uint8(NaN) gives on the machine; in velocity images speeds just above 1 m/s are nearly black
    while speeds up to 1 m/s are pale (C64).
17. A composite returned with an error of the data section has rows full of zeros for the data that was not there, and the
    dimensions in the header (not the amount of data) decide how much memory is allocated before the first data byte is
    read: a file of less than 1000 bytes can ask for 4·10^18 bytes (C73).
18. The precision in the header is unchecked: from E+39 on every raw zero is decoded to NaN, i.e. to missing data, and
    every other value to an infinity; below E-45 all values are zero (C77).
19. A capital letter beyond ASCII cuts the value of a header field it occurs in (C76; harmless, since no such value is
    used).
20. The 900x900 km grid cuts off the northern tip of Germany: border points north of 54.91 N are projected above the
    picture, and those less than a pixel above it are drawn on its first row (C79). The comment in borders.go calls the
    pairs {longitude, latitude}; they are latitude, longitude.
21. A run-length encoded file of 81 bytes is accepted with a composite of one row and 2^46 pixels (C81); empty lines
    decode to rows of any width.
22. Precipitation of exactly 0.10 mm in products with precision E-02 (RY, YW) is decoded to the float32 below 0.1 and drawn
    black like no precipitation, whereas 0.1 mm with precision E-01 is visible (C84).
23. Level tables may contain nan, inf, hexadecimal numbers and underscores; what follows a number in its entry is ignored
    ("1 2.0" is 1); "9p200", a decimal with binary exponent, is read as infinity while "9e39" is an error (C99). Capital
    letters in a table begin a new field.
24. NewComposites rejects every archive that contains a directory (as `tar cj dir` makes them): the directory is parsed as a
    composite without content, "header too short". A tar stream that properly ends between two members or in the padding
    (say, a truncated archive that was compressed again) is accepted as a shorter archive, an empty one as no composites (C101).
