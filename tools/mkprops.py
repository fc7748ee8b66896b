import json
P=[]
def add(title,statement,quantifier,why,anchors):
    P.append(dict(id="C%02d"%(len(P)+1),title=title,statement=statement,quantifier=quantifier,why_tests_cant=why,anchors=anchors))

add("Point queries are total",
 "For any composite handed out by NewComposite (whether it also returned an error or not) or by NewDummy, At(x,y) and AtZ(x,y,z) never panic, for any integers x, y, z.",
 "every input byte stream, every dummy, every triple of ints",
 "index panics depend on the relation between the declared dimensions and the allocated slices for every header; tests sample a few products",
 ["radolan.go:AtZ","radolan.go:At","radolan.go:NewComposite","radolan.go:NewDummy","data.go:parseData","data.go:arrangeData"])
add("Outside the volume is NaN",
 "AtZ(x,y,z) is NaN whenever x, y or z is negative or not below Dx, Dy, Dz; At(x,y) is AtZ(x,y,0); inside the volume AtZ(x,y,z) is DataZ[z][y][x] and At(x,y) is Data[y][x].",
 "every composite returned by the API and every triple of ints",
 "unbounded coordinate space",
 ["radolan.go:AtZ","radolan.go:At"])
add("NewComposite panics exactly on impossible dimensions",
 "NewComposite returns normally on every input whose declared dimensions are non-negative and allocatable; it panics exactly when the header parses and declares non-zero dimensions of which one is negative or too large for make. (The unconditional claim 'never panics' is false: 'GP -1x 5' panics.)",
 "every byte stream",
 "absence of panics over all byte strings cannot be sampled; the crash needs a specific malformed header",
 ["header.go:parseHeader","data.go:parseData","radolan.go:NewComposite"])
add("A failed parse exposes no data",
 "When NewComposite returns an error other than ErrUnknownUnit, the returned composite has Dz = 0, has no projection, and At/AtZ return NaN everywhere.",
 "every byte stream on which parsing fails, at every failing point",
 "there are many error exits, each leaving the composite partly filled",
 ["radolan.go:NewComposite","header.go:parseHeader","data.go:parseData"])
add("Shape of a parsed composite",
 "When NewComposite succeeds (nil or ErrUnknownUnit) then Dx, Dy, Dz >= 1, Dx = Px, PlainData has Py rows of Px values, DataZ has Dz layers of Dy rows of Dx values, Data is DataZ[0], and Dz*Dy <= Py.",
 "every byte stream on which parsing succeeds",
 "must hold for every header dimension and product",
 ["data.go:parseData","data.go:arrangeData","catalog.go:dimensionCatalog","header.go:parseHeader"])
add("Layers are consecutive blocks of plain rows",
 "After a successful parse every voxel (x,y,z) equals a plain data element: PlainData[Dy*z+y][x] if Py is a multiple of Dy (all layers present), and PlainData[Py-Dy+y][x] (bottom part, elevation strip removed) otherwise; header-dimensioned composites have exactly one layer equal to PlainData; catalogued 224-row products drop the first 24 rows; 2400-row products have 12 layers.",
 "every successfully parsed composite and every voxel",
 "index arithmetic over all sizes and products",
 ["data.go:arrangeData","catalog.go:dimensionCatalog"])
add("Single byte pixels",
 "If no level field is present and BY minus the header length equals Px*Py, the plain data element PlainData[y][x] is a function of the single byte at offset (Py-1-y)*Px+x of the data section (vertical flip; voxels are plain elements by C06): NaN iff that byte is 250 or the scaled value is itself NaN, otherwise the byte scaled by the precision, and for dBZ products that value halved minus 32.5, with Go's float32 rounding after each step.",
 "every header, every data section, every pixel",
 "all 256 byte values at all positions and all sizes",
 ["singlebyte.go:parseSingleByte","singlebyte.go:rvp6SingleByte","data.go:identifyEncoding"])
add("Little endian pixels",
 "If no level field is present and BY minus the header length equals 2*Px*Py, the plain data element PlainData[y][x] is a function of the byte pair at offset 2*((Py-1-y)*Px+x) (voxels are plain elements by C06): NaN if bit 5 of the high byte is set (even when the sign bit is set too), otherwise the 12-bit magnitude, negated if bit 6 is set, scaled by the precision, and for dBZ products halved minus 32.5; bits 4 and 7 of the high byte are ignored.",
 "every header, every data section, every pixel and byte pair",
 "all 65536 pairs at all positions and all sizes",
 ["littleendian.go:parseLittleEndian","littleendian.go:rvp6LittleEndian","data.go:identifyEncoding"])
add("Decoded values are accurate",
 "For unit mm/km/mps with precision -37..34 the decoded float32 of raw value v (|v| <= 4095) differs from v*10^precision by a relative error of at most 2^-22; it is exactly v for precision 0; for dBZ products with precision 0 it is exactly v/2-32.5, and with another precision within (|v*10^precision|+65)*2^-22 of v*10^precision/2-32.5.",
 "every raw value and every precision in the range",
 "error bounds over the product of raw values and precisions",
 ["conversion.go:rvp6Raw","conversion.go:toDBZ","littleendian.go:rvp6LittleEndian","singlebyte.go:rvp6SingleByte"])
add("Decoding preserves order",
 "For a fixed composite with precision -37..34, a larger raw value never decodes to a smaller float32; for non-dBZ products (and dBZ products of precision at least -4) distinct raw values (|v| <= 4095) decode to distinct floats.",
 "every pair of raw values and every precision in the range",
 "relational claim over all pairs",
 ["conversion.go:rvp6Raw","conversion.go:toDBZ"])
add("Run-length rows round-trip",
 "For every row of 4-bit class codes, encoding it as a run-length line (any line number byte, leading gap in offset bytes with 255-continuation, runs of at most 15) and decoding it yields exactly the row with code 0 and codes above the level count mapped to NaN and code k to the k-th level.",
 "every row of every width, every level table",
 "unbounded rows; multi-byte offsets (255 continuation) and maximal runs are rare in samples",
 ["runlength.go:decodeRunlength","runlength.go:rvp6Runlength"])
add("Run-length decoding never writes out of bounds and reports overflow",
 "Decoding any byte line into a row of width w either fails or yields exactly w values, each NaN or one of the declared levels; a run reaching beyond w is reported as an error; pixels not covered by a run are NaN.",
 "every byte line, every width, every level table",
 "adversarial lines",
 ["runlength.go:decodeRunlength"])
add("Row order per encoding",
 "Run-length data rows are stored top to bottom (plain row i is line i of the data section); single byte and little endian rows are stored bottom to top (plain row i is row Py-1-i of the data section).",
 "every successfully parsed file and every row",
 "must hold for every row of every size",
 ["runlength.go:parseRunlength","singlebyte.go:parseSingleByte","littleendian.go:parseLittleEndian"])
add("Encoding selection",
 "A file whose header has a level field is decoded as run-length whatever its length; otherwise the data length decides (2*Px*Py little endian, Px*Py single byte) and any other length is an error whatever the data bytes are (sizes below 2^60, beyond which the int64 products wrap around).",
 "every header and data section",
 "three-way decision over unbounded lengths",
 ["data.go:identifyEncoding","data.go:parseData","data.go:parseUnknown"])
add("Trailing bytes are ignored",
 "If NewComposite succeeds on some bytes, it returns the same composite on those bytes followed by anything.",
 "every successful input and every suffix",
 "infinitely many suffixes",
 ["radolan.go:NewComposite","header.go:parseHeader","runlength.go:readLineRunlength","singlebyte.go:readLineSingleByte","littleendian.go:readLineLittleEndian"])
add("Truncated files are rejected",
 "For every successful input there is a consumed length n such that every prefix of length >= n gives the same result and every shorter prefix yields an error (never a silently short composite). For a binary file whose BY length announces one or two bytes per pixel, n is exactly the announced length; for a run-length coded file it is the header, the delimiter and one line per row including its line feed.",
 "every successful input and every truncation point",
 "every crash/truncation point of every file",
 ["singlebyte.go:readLineSingleByte","littleendian.go:readLineLittleEndian","runlength.go:readLineRunlength","header.go:parseHeader"])
add("Result does not depend on read chunking",
 "NewComposite gives the same result for every io.Reader delivering the same byte sequence and terminal error, however Read splits it into chunks (including short reads and fewer than 100 consecutive empty reads).",
 "every byte stream and every read schedule",
 "all schedules of the reader",
 ["radolan.go:NewComposite (bufio.NewReader, io.ReadFull)"])
add("Header splitting",
 "A header consisting of upper-case keys each followed by a non-empty value without upper-case letters is split into exactly those key/value pairs (the last one winning for duplicate keys), and nothing else.",
 "every sequence of key/value pairs",
 "unbounded headers",
 ["header.go:splitHeader"])
add("Header fields may come in any order",
 "Permuting the fields after the product/time prefix (distinct keys) does not change the result of NewComposite.",
 "every header and permutation of its fields",
 "factorially many orders",
 ["header.go:splitHeader","header.go:parseHeader"])
add("A trailing key without value steals the previous value",
 "If the header ends in upper-case letters (a key without value), that key is reported with the value of the preceding field. (A user would expect it to be absent or empty; the code violates that and the violation is characterised exactly.)",
 "every header ending in a key",
 "boundary condition at the end of the header",
 ["header.go:splitHeader"])
add("Capture time",
 "The capture time is the UTC instant given by day (bytes 2-3), hour (4-5), minute (6-7), month (13-14) and two-digit year (15-16, pivot 69); every civil time from 1969 to 2068 is recovered exactly from its formatted header, the WMO bytes 8-12 are irrelevant, and impossible dates are rejected. (The year may also be written +k or -k, meaning 2000+k and 2000-k: Go's number parser admits a sign.)",
 "every date-time in a century and every 10-byte date string",
 "about 52 million minutes; leap years and month lengths",
 ["header.go:parseHeader (CaptureTime)"])
add("Forecast time",
 "ForecastTime is CaptureTime plus VV minutes (0 if absent), so for VV below 153 million minutes it is never before CaptureTime when VV >= 0 and the difference is exactly VV minutes; larger VV values wrap around int64 nanoseconds.",
 "every VV value",
 "int64 wrap-around region is outside samples",
 ["header.go:parseHeader (ForecastTime)"])
add("Interval",
 "Interval is INT minutes, times ten for products W1, W2, W3, W4 and no others, and 0 if INT is absent.",
 "every product label and INT value (without overflow)",
 "all products and values",
 ["header.go:parseHeader (Interval)"])
add("Dimensions",
 "Dimensions come from GP (rows x columns) if present, else BG (3+3 digits), else from the product catalog, else parsing fails; the first number is the row count Dy, the second the column count Dx. (A blank-padded BG field such as ' 90200' is misread, here as 902 x 0: exactly characterised.)",
 "every header",
 "all field combinations and numbers",
 ["header.go:parseHeader (Dimensions)","catalog.go:dimensionCatalog"])
add("Product and unit",
 "Product is the first two header bytes; DataUnit is the catalogued unit of that product; NewComposite returns ErrUnknownUnit iff everything else parsed and the product is not in the unit catalog.",
 "every byte stream",
 "65536 labels times all parse outcomes",
 ["header.go:parseHeader","catalog.go:unitCatalog","radolan.go:NewComposite"])
add("Unit.String is total on parsed units",
 "For every composite returned by the API, DataUnit.String() does not panic.",
 "every byte stream, every dummy",
 "slice index on an int-typed enum",
 ["catalog.go:Unit.String","catalog.go:unitCatalog"])
add("Levels",
 "For every level table in Fortran I2,F5.1 format with at most 99 entries the parsed level list has the announced count and the i-th entry is the float32 nearest to the i-th decimal; a count that does not match the field length is an error.",
 "every level table",
 "10^4 values in up to 99 positions",
 ["header.go:parseHeader (Level)"])
add("Archives: sorted permutation",
 "NewComposites returns one composite per archive entry, a permutation of the parsed entries, in ascending ForecastTime order.",
 "every archive of every length",
 "unbounded lists, unstable sort",
 ["radolan.go:NewComposites"])
add("Archives: all or nothing",
 "NewComposites returns no composites and the first error in archive order if any entry fails to parse (ErrUnknownUnit included) or the archive is damaged, whatever the other entries are; entries after the failing one are not read.",
 "every archive and failing position",
 "every failure position",
 ["radolan.go:NewComposites"])
add("Archives: result independent of entry order",
 "If the forecast times are pairwise distinct, permuting the archive entries does not change the result of NewComposites.",
 "every archive and every permutation of it",
 "factorially many permutations",
 ["radolan.go:NewComposites"])
add("When a projection is available",
 "HasProjection holds after NewDummy or a successful NewComposite iff (Dx,Dy) is one of the five base grids (225,225), (115,115), (225,275), (275,300), (350,375) scaled by a power of two, and either Format < 5 or the grid is (275,300)*2^k; negative or zero dimensions never have one.",
 "every pair of dimensions and every format",
 "unbounded dimensions; loop termination",
 ["projection.go:minRes","projection.go:detectGrid","projection.go:calibrateProjection"])
add("No projection means NaN",
 "Without projection Project returns (NaN, NaN) for every coordinate; and Rx, Ry are NaN in every successfully parsed or dummy composite without projection.",
 "every composite and every coordinate",
 "all coordinates",
 ["projection.go:Project","projection.go:calibrateProjection"])
add("Project depends only on format and dimensions",
 "Two composites (parsed or dummy) with equal Format, Dx, Dy have equal HasProjection, Rx, Ry and Project results; the product label and the data are irrelevant.",
 "every pair of composites and every coordinate",
 "relational, unbounded",
 ["projection.go:calibrateProjection","projection.go:Project","radolan.go:NewDummy"])
add("Origin maps to (0,0)",
 "When a projection is available, Project of the grid's top-left corner is exactly (0, 0) in float64 (without fused multiply-add), whatever the resolution and whatever math.Sin etc. return, provided the calibrated Rx, Ry are positive numbers.",
 "every composite with projection",
 "all resolutions; exactness of floating point cancellation",
 ["projection.go:calibrateProjection","projection_sphere.go:projectSphere","projection_wgs84.go:projectWGS84"])
add("Edge maps to (Dx,Dy)",
 "When a projection is available, Project of the grid's bottom-right corner is (Dx, Dy): exactly in real arithmetic, and within relative 2^-51 in float64 (provided the calibrated Rx, Ry are normal numbers).",
 "every composite with projection",
 "all resolutions",
 ["projection.go:calibrateProjection"])
add("Resolution scaling",
 "Halving the pixel size (doubling both dimensions) doubles the projected coordinates of every point and halves Rx and Ry: exactly in real arithmetic, and exactly in float64 unless a number is subnormal.",
 "every grid, every scale, every coordinate",
 "all coordinates and scales",
 ["projection.go:calibrateProjection","projection_sphere.go","projection_wgs84.go"])
add("Projection is injective and orientation-preserving",
 "In real arithmetic, with a projection available, Rx and Ry are positive, distinct geographic points (latitude in (-90,90), longitude in (-170,190]) have distinct image points, and within 90 degrees of the central meridian (10 E) x grows eastwards along parallels and y grows southwards along meridians.",
 "every pair of geographic coordinates",
 "continuum of coordinates",
 ["projection_sphere.go:projectSphere","projection_wgs84.go:projectWGS84"])
add("Catalog resolution is lost",
 "The documented fields Rx, Ry (km/px) of catalog-dimensioned local products are set from the catalog while parsing but are NaN in every composite returned by NewComposite for such a product. (Violates the field documentation; recorded as a finding.)",
 "every successful parse of a catalog-dimensioned product",
 "needs reasoning over the whole pipeline",
 ["header.go:parseHeader","projection.go:calibrateProjection","catalog.go:dimensionCatalog"])
add("Z-R relations invert each other",
 "In real arithmetic, for A > 0 and B != 0: Reflectivity(zr, PrecipitationRate(zr, d)) = d for all d, PrecipitationRate(zr, Reflectivity(zr, r)) = r for r > 0, and Z = A*R^B where d = 10*log10 Z.",
 "all A, B, all reflectivities and rates",
 "continuum",
 ["conversion.go:NewZR","conversion.go:PrecipitationRate","conversion.go:Reflectivity"])
add("More reflectivity, more rain",
 "In real arithmetic PrecipitationRate is positive and strictly increasing in dBZ for A > 0, B > 0.",
 "all relations and reflectivities",
 "continuum",
 ["conversion.go:PrecipitationRate"])
add("No data stays no data",
 "A NaN pixel value gives a NaN PrecipitationRate for every relation whose base constant c3 is not 1, and IsNaN is true exactly for NaN.",
 "all float32 values and relations",
 "all NaN-producing inputs",
 ["conversion.go:PrecipitationRate","conversion.go:IsNaN"])
add("Image mirrors the layer",
 "vis.Image has exactly Dx x Dy pixels for a parsed composite; pixel (x,y) is the colour function applied to AtZ(x,y,layer); for a layer outside 0..Dz-1 every pixel is transparent black; it never panics on parsed composites small enough to be allocated.",
 "every composite, colour function and layer",
 "all layers and sizes",
 ["radolan2png/vis/vis.go:Image"])
add("Graymap is a monotone opaque gray scale",
 "For every min < max and monotone compression, Graymap yields gray, fully opaque colours; values up to min are black, values at or above max are white, and brightness never decreases with the value (float64 rounding included); unless the compressed value is NaN no conversion to uint8 is out of range.",
 "all bounds, compressions and values",
 "all float64 values",
 ["radolan2png/vis/vis.go:Graymap"])
add("Heatmap stays in gamut",
 "For every min < max, Heatmap always returns an opaque colour; values below min are black; for any other non-NaN value every conversion to int and uint8 is in range, float64 rounding included, and some channel is at least 127, so it is distinguishable from black; min itself is (0,0,127), everything from max on (191,127,255).",
 "all bounds, compressions and values",
 "all float64 values",
 ["radolan2png/vis/vis.go:Heatmap"])
add("Radialmap separates directions",
 "Radialmap returns black for NaN, colours with red >= green = blue for non-negative values and red <= green = blue for negative values, with no out-of-range uint8 conversion reaching the result when compression is nonnegative on |val| > 1 and positive on the base max(|min|,|max|); intensity grows with |val| and is saturated from the base on.",
 "all bounds and values",
 "all float64 values",
 ["radolan2png/vis/vis.go:Radialmap"])
add("radolan2png always picks a colour map",
 "Whenever NewComposite succeeds without error, the unit switch of radolan2png selects a colour function; for mm products the upper bound is 100 for intervals up to one hour, 400 from one week, 200 in between.",
 "every successfully parsed input",
 "all units and intervals",
 ["radolan2png/radolan2png.go:convert"])
add("End to end round trip",
 "For every product, valid time, dimensions 1..9999, precision, forecast offset, interval, format and raw data, serialising them as a RADOLAN single byte or little endian file and calling NewComposite returns a composite with exactly these attributes and pixel values.",
 "every well-formed composite file content",
 "full input space",
 ["radolan.go:NewComposite","header.go","data.go","singlebyte.go","littleendian.go"])
add("Data, DataZ and PlainData alias the same memory",
 "After a successful parse, a write through PlainData[r][x] is observed by At/AtZ and by Data/DataZ exactly at the voxel that maps to plain row r, and a write through Data[y][x] is observed by DataZ[0][y][x], and nowhere else.",
 "every composite, every write position and every sequence of writes",
 "aliasing over all positions and write histories",
 ["data.go:arrangeData","radolan.go:Composite.Data"])
add("The mesh of radolan2png",
 "The mesh loops end; parallels are drawn at 46..54 degrees; meridians are drawn at 1, 2, 3, 4 and then at 5.1, 6.1, ..., 15.1 degrees. (A user would expect whole degrees; accumulated rounding of e += 0.1 makes the test miss them from 5 on: recorded as a finding.)",
 "all mesh points and every implementation of out-of-range conversions",
 "depends on accumulated float64 rounding; no test looks at single mesh points",
 ["radolan2png/radolan2png.go:convert"])
add("What radolan2png draws",
 "radolan2png fails exactly with the error of NewComposite; otherwise (image buffer allocatable) it does not panic, and each of the Dx x Dy pixels has the mesh colour if a mesh point is projected onto it, else the border colour if a border point is, else the colour map applied to At(x,y); without projection only the latter.",
 "every input, border table and pixel",
 "all inputs, projections and overlay positions",
 ["radolan2png/radolan2png.go:convert","radolan2png/vis/vis.go:Image"])
add("Appending to Data overwrites the next layer",
 "Data is a window of PlainData with spare capacity: for a composite with at least two layers, append(c.Data, row) does not copy but replaces DataZ[1][0] and PlainData[Dy] by the appended row, and changes nothing else. (Recorded as a finding: callers must clip the slice before appending.)",
 "every parsed composite with Dz >= 2 and every appended row",
 "depends on slice capacities for all dimensions",
 ["data.go:arrangeData","radolan.go:Composite.Data"])
add("Grids are where they are documented",
 "For every grid at every resolution the calibrated pixel size is the nominal extent (900x900, 920x920, 900x1100, 1100x1200 or 1400x1500 km) divided by the number of pixels, to 10 ppm, and the corner and centre coordinates documented by DWD are projected to their documented places, to 25 m or 1 mm depending on the number of documented decimals (exact arithmetic).",
 "all grids, formats and resolutions",
 "continuum of resolutions; tests check a few sizes numerically",
 ["projection.go:calibrateProjection","projection.go:cornerPoints","projection_sphere.go","projection_wgs84.go"])
add("The projection is conformal",
 "At every point north of 90 S and south of 90 N the projection has derivatives along meridian and parallel that are orthogonal and, scaled to ground distance on sphere or ellipsoid, equally long (angles are preserved); on the sphere the scale is (1+sin 60)/(1+sin n), so distances are true at 60 N; on the ellipsoid they are true at 60 N to 1e-9 (exact arithmetic).",
 "all points of the earth except the poles, all grids",
 "a continuum of points and a statement about derivatives",
 ["projection.go:Project","projection_sphere.go","projection_wgs84.go"])
add("Float64 projection accuracy",
 "With sine and cosine accurate to 1e-15, powers to 5e-15 and the tangent to 1e-14, the resolutions computed in float64 are positive and accurate to 5e-12, and for every point from 45 S to the pole Project returns finite numbers within a billionth of the grid (about a millimetre) of the exact projection.",
 "all grids, resolutions and float64 coordinates",
 "all float64 inputs, rounding of every operation",
 ["projection.go:Project","projection.go:calibrateProjection","projection_sphere.go","projection_wgs84.go"])
add("Files at every interruption point of radolan2png",
 "Wherever radolan2png in out is interrupted, no file other than out has changed, and out is either untouched or (the input having been parsed and drawn) holds an initial piece of the PNG encoding. The exit status is 0 exactly if the input can be opened and drawn and the output created and encoded, and then out holds the complete PNG of the image drawn from the original input, even if in and out are the same file. A missing or rejected input leaves all files as they were, with exit status 1; too few arguments only print the usage.",
 "every input, every file system state, every failure of open, read, create and encode, every crash point",
 "crash points and failing system calls",
 ["radolan2png/radolan2png.go:main","radolan2png/radolan2png.go:convert"])
add("The grid size radolan2png prints",
 "A grid size is printed exactly for composites with a projection; with sine and cosine accurate to 1e-15, powers to 5e-15 and the tangent to 1e-14, its float64 width and height, printed to a tenth of a kilometre, are the nominal extent of the grid.",
 "every composite with a projection at every resolution",
 "all resolutions, rounding of every operation",
 ["radolan2png/radolan2png.go:convert","projection.go:calibrateProjection"])
add("Z-R conversions in floating point",
 "For parameters 1 <= a <= 10000, 1/2 <= b <= 10 (including the four named relations, whose parameters are the published ones) and powers (with exponents up to 200) and logarithms accurate to 1e-13: PrecipitationRate of every float32 reflectivity up to 128 dBZ is finite, positive and within 1e-10 of the exact rate; Reflectivity of rates from 1e-30 to 1e30 mm/h is within 1e-7 (absolute plus relative) of the exact value; Reflectivity(PrecipitationRate(d)) == d exactly for every float32 d with 1/8 <= |d| <= 128 and to 2e-9 for smaller ones; PrecipitationRate(Reflectivity(r)) is r to 1e-5 up to 127 dBZ; PrecipitationRate is strictly increasing between distinct float32 arguments not both below 1/8.",
 "all float32 reflectivities, float64 rates and Z-R parameters in the ranges",
 "about 2^31 reflectivities times a continuum of relations; rounding of every operation",
 ["conversion.go:NewZR", "conversion.go:PrecipitationRate", "conversion.go:Reflectivity", "conversion.go:Aniol80"])
add("Distances do not depend on the grid",
 "In exact arithmetic, composites on the same earth model show the same displacement (pixels times Rx, Ry) between any two geographic points, whatever their grids and resolutions; on the spherical grids the squared distance is the squared straight-line distance of the points times the map scales (1+sin 60)/(1+sin n) at both.",
 "all pairs of grids, resolutions and geographic points",
 "continuum of pairs of points; the repository checks one pair of cities on seven composites",
 ["projection.go:Project", "projection.go:calibrateProjection", "projection_sphere.go", "projection_wgs84.go"])
add("Every place of a grid has exactly one coordinate",
 "In exact arithmetic every place on or below the top edge of a grid, in particular every place inside the picture, is the Project image of exactly one geographic point (latitude in (-90, 90), longitude in (-170, 190]).",
 "all grids, resolutions and places",
 "existence over a continuum; the code contains no inverse to test against",
 ["projection.go:Project", "projection_sphere.go", "projection_wgs84.go"])
add("Consecutive files on one reader",
 "Complete files that follow each other in a *bufio.Reader (buffer of at least 4096 bytes) are returned by successive calls of NewComposite, which leave the reader at the first byte after the last file. With any other io.Reader a call returns the composite too, but may take up to 4096 following bytes out of the reader, which are lost for later calls; two small files in one plain reader lose the second.",
 "all sequences of complete files, trailing bytes, readers, chunkings and buffer states",
 "the position after a call depends on every chunking and buffer state",
 ["radolan.go:NewComposite", "header.go:parseHeader", "data.go:parseData"])
add("Archives are read entry by entry whatever the reader does",
 "NewComposites returns for every tar reader, in whatever chunks it delivers the entries, and the result depends only on the contents of the entries and on whether the archive is damaged: no byte of an entry leaks into the next one although every NewComposite reads ahead.",
 "all tar readers (state machines meeting the contract of archive/tar), entries and chunkings",
 "ranges over all chunkings and all read-ahead positions",
 ["radolan.go:NewComposites", "radolan.go:NewComposite"])
add("Stalled transfers",
 "If the reader delivers a byte sequence and then answers every call with no bytes and no error, NewComposite returns what it returns for that sequence, except where the data section of a binary file is incomplete: then the call never returns. A file that stalls in its header, or a run-length coded file, ends in an error.",
 "all readers that stall, byte sequences and chunkings",
 "non-termination cannot be observed by a test",
 ["radolan.go:NewComposite", "singlebyte.go:readLineSingleByte", "littleendian.go:readLineLittleEndian", "runlength.go:readLineRunlength"])
add("Exact acceptance criterion",
 "A file made of header fields, delimiter and data is accepted exactly if its header has at least 21 bytes, a valid date, a readable length, readable optional numbers, readable (or catalogued) dimensions and a readable level table, if any, the dimensions can be allocated, and the data section is complete: as many bytes as announced, one or two per pixel, or with a level table one decodable line per row. It panics exactly if the header is readable and the nonzero dimensions cannot be allocated; everything else is an error. The accepted texts of numbers are given exactly (white space, sign, digits, range, width).",
 "all sequences of well-formed header fields and all data sections below 2^62 bytes",
 "an equivalence over all headers and data sections",
 ["radolan.go:NewComposite", "header.go:parseHeader", "data.go:parseData"])
add("Colours radolan2png gives to values",
 "Given a logarithm accurate to 10^-12: precipitation below 0.1 mm is black, from 0.1 mm on clearly visible, from 100/200/400 mm (by interval) on light violet; reflectivity is black below 1 dBZ, visible from 1 dBZ on, light violet from 75 dBZ on; echo tops are grays of brightness proportional to the height between 0 and 15 km, never darker for a greater height; velocities are pale up to 1 m/s, above that red (away) or cyan with a brightness proportional to the logarithm of the speed, saturated from 31.5 m/s on. All these colours are the same on every Go implementation. A missing value is black in velocity images; elsewhere a missing value (and negative precipitation) is a gray whose brightness is the implementation's uint8(NaN).",
 "all accepted inputs, all float32 pixel values, all behaviours of out of range conversions, all logarithms meeting the error bound",
 "four billion pixel values per product and float rounding near the limits; conversions of NaN depend on the machine",
 ["radolan2png/radolan2png.go:colorFunc", "radolan2png/vis/vis.go:Heatmap", "radolan2png/vis/vis.go:Graymap", "radolan2png/vis/vis.go:Radialmap"])
add("Heat map colours are an HSL gradient",
 "In reflectivity and precipitation images a value inside the range is drawn in the fully saturated HSL colour at its position in the range (linear in dBZ from 1 to 75, logarithmic in mm from 0.1 to the maximum): the hue falls from blue (240 degrees) through green and red to violet (270) by 330 degrees, the lightness rises from 1/4 to 3/4; every channel is the exact value times 255 rounded down, up to an error of 10^-8.",
 "all accepted inputs of those products, all float32 values in the range, all logarithms meeting the error bound, all behaviours of out of range conversions",
 "a statement about every value, including those where the hue passes a sector boundary or 360 degrees and rounding could select the wrong branch",
 ["radolan2png/vis/vis.go:Heatmap", "radolan2png/radolan2png.go:colorFunc"])
add("Predefined gradients of package vis",
 "HeatmapReflectivityShort, HeatmapReflectivity and HeatmapReflectivityWide are black below 5, 1 and -32.5 dBZ and then run linearly through the heat colours up to 75 dBZ; HeatmapAccumulatedHour and HeatmapAccumulatedDay are black below 0.1 mm and run logarithmically up to 100 mm and 200 mm; HeatmapRadialVelocity is red for positive and cyan for negative velocities, pale up to 1 m/s, logarithmic up to 31.5 m/s and saturated beyond; GraymapLinear and GraymapLinearWide have the brightness v/409.5 and v/4095. Beyond the upper bound the colour stays at its end; what NaN (and a negative rainfall) looks like depends on the implementation except for the velocity gradient, where it is black; no other value involves an out of range conversion.",
 "all float64 values (for the logarithmic gradients except within a relative distance of 10^-8 of the bounds), all logarithms meeting the error bound, all behaviours of out of range conversions",
 "eight functions on all float64 values including infinities and NaN",
 ["radolan2png/vis/vis.go:HeatmapReflectivityShort", "radolan2png/vis/vis.go:HeatmapReflectivity", "radolan2png/vis/vis.go:HeatmapReflectivityWide", "radolan2png/vis/vis.go:HeatmapAccumulatedHour", "radolan2png/vis/vis.go:HeatmapAccumulatedDay", "radolan2png/vis/vis.go:HeatmapRadialVelocity", "radolan2png/vis/vis.go:GraymapLinear", "radolan2png/vis/vis.go:GraymapLinearWide"])
add("Projection is accurate however the compiler fuses operations",
 "The Go specification lets a compiler combine floating-point operations (multiply-add on arm64, ppc64, s390x), possibly across statements. Whatever intermediate results of the calibration and of Project are left unrounded, Rx and Ry are positive and within a relative 5*10^-12 of the exact resolution, Project returns finite numbers within a billionth of the edge length of the exact projection, and the documented reference points are mapped to their documented places. The evaluation with every operation rounded is one of the permitted ones, for all composites and arguments.",
 "all subsets of operations that are fused, all grids and resolutions with a projection, all latitudes from -45 to 90 and longitudes within +-360, all math libraries with errors up to 10^-15 (powers: 5*10^-15, tangent: 10^-14)",
 "a test runs on one architecture with one compiler; the set of permitted evaluations is exponential in the number of operations",
 ["projection.go:calibrateProjection", "projection.go:Project", "projection_sphere.go:projectSphere", "projection_wgs84.go:projectWGS84"])
add("Run-length coded pictures survive a round trip",
 "Writing a picture product (label, WMO number, time, up to 99 levels with one decimal, station list, class codes, any line numbers but line feed) as header fields, level table in I2,nF5.1 format and run-length coded lines gives a file that NewComposite accepts; the composite has the same product and capture time (forecast equal to capture), the levels as nearest float32, the grid of the picture (for local products without dimension field 200x200 in one layer below a 24 row strip, or in 12 layers), and AtZ returns at every pixel of every layer the level of its class code. The error is nil exactly if the product has a known unit.",
 "all well-formed pictures: every label, valid time 1969-2068, level list, station text, matrix of codes 0..15 and line numbers",
 "the encoder and decoder compose scanning, level parsing, run decoding and layering; the number of pictures is astronomically large",
 ["radolan.go:NewComposite", "header.go:parseHeader", "data.go:parseData", "runlength.go:parseRunlength", "runlength.go:decodeRunlength", "radolan.go:AtZ"])
add("Unknown header fields are ignored",
 "Two well-formed headers with the same product label and date, the same values for the known keys (BY aside) and BY values that exceed their own header's length by the same amount give the same result (composite and error) with every data section. In particular a field with an unknown key may be inserted anywhere after the BY field, if BY is increased by the change of length, and the WMO number does not matter.",
 "all pairs of headers made of well-formed fields (known or not, any order and number), all data sections",
 "there are infinitely many unknown keys, values and positions; tests use the files of today",
 ["header.go:parseHeader", "header.go:splitHeader", "radolan.go:NewComposite"])
add("Damage to the data section stays local",
 "Replacing the data section of an accepted binary file by any other of sufficient length gives an accepted file with the same metadata, and every pixel whose own one or two bytes are unchanged keeps its value. Replacing lines of an accepted run-length coded file by other lines (without line feed) gives an error or an accepted file with the same metadata in which the rows of the unchanged lines are unchanged.",
 "all accepted files, all replacement data sections and lines",
 "independence of each pixel from all other bytes concerns every pair of files",
 ["data.go:parseData", "singlebyte.go:parseSingleByte", "littleendian.go:parseLittleEndian", "runlength.go:parseRunlength"])
add("RVP-6 and dBZ values determine each other",
 "Converting RVP-6 units to dBZ and back (toDBZ, toRVP6) is exact in float32 for every value n/2^k with |n| + 65*2^k <= 2^24, in both directions, and for every finite value up to 2^100 the result differs from the argument by at most (|v|+65)/2^21. Hence the raw value (|v| <= 4095) of a pixel of a reflectivity product of precision -2..26 can be recovered from the decoded dBZ value to a hundredth of a raw step.",
 "all finite float32 values; all raw values and precisions in the range",
 "four float32 roundings for every one of 2^32 arguments; the repository tests four",
 ["conversion.go:toDBZ", "conversion.go:toRVP6", "conversion.go:rvp6Raw"])
add("From file bytes to the colours of the picture",
 "For every well-formed reflectivity composite with one byte per pixel and precision 0, radolan2png draws a picture with one pixel per data byte, the last row of the file on top; where no mesh or border point is drawn, byte 250 gives the gray of an undefined conversion, bytes below 67 black, bytes from 215 on (191,127,255), and byte b in between the colour at (b-67)/148 of the HSL gradient. For precipitation composites with two bytes per pixel in tenths of a millimetre, raw value 0 is black, every value from 0.1 mm on is visible and at the logarithmic position of its amount, values from the maximum (100, 200 or 400 mm by interval) on are (191,127,255), and missing values have the gray of an undefined conversion. Elsewhere the pixel has the mesh or border colour.",
 "all well-formed file contents (any size up to 2^46 pixels, any data), all machines",
 "composes parser, decoder, colour map and overlay; no finite set of pictures covers it",
 ["radolan2png/radolan2png.go:main", "radolan2png/vis/vis.go:Heatmap", "radolan2png/vis/vis.go:Image", "radolan.go:NewComposite", "singlebyte.go:rvp6SingleByte", "littleendian.go:rvp6LittleEndian"])
add("What a failed parse leaves behind",
 "If the data section of a valid file is cut off anywhere before its end, NewComposite returns an error together with a composite that has all its rows: the rows read completely have the values of the whole file, all other pixels are the number zero (they look like data, not like missing values). The header alone decides how much is allocated before the data is read: for every size up to 10^9 x 10^9 there is an input of at most a thousand bytes that is rejected only after a picture of that size was built.",
 "all accepted files, all cut positions, all three encodings; all dimensions up to 10^9",
 "every cut position of every file",
 ["data.go:parseData", "singlebyte.go:parseSingleByte", "littleendian.go:parseLittleEndian", "runlength.go:parseRunlength", "radolan.go:NewComposite"])
add("Goroutines do not interfere",
 "Any number of goroutines may call NewComposite, At and AtZ at the same time, modify their own composites and read composites shared among them. Under every interleaving of their memory accesses each goroutine gets the values, errors, panics and composites it gets when it runs alone, and the shared composites stay as they were published; no two goroutines are ever about to access the same memory with one of them writing (no data race); a goroutine never has to wait for another one; with finitely many goroutines every schedule ends.",
 "all numbers of goroutines, all client programs (data dependent sequences of parses, reads, element assignments and reads of shared composites), all inputs, all schedules, all choices of addresses by the allocator",
 "the number of schedules is unbounded; a race detector sees one of them at a time",
 ["radolan.go:NewComposite", "radolan.go:AtZ", "radolan.go:At", "data.go:parseData", "data.go:arrangeData", "singlebyte.go:decodeSingleByte", "littleendian.go:decodeLittleEndian", "runlength.go:decodeRunlength"])
add("Header times follow the calendar",
 "The capture time of an accepted input whose first bytes are the time stamp of a civil time (1969 to 2068) is that instant; capture times are ordered as the times in the headers are in the calendar, and equal only for equal header times. A header one minute later on the clock, across hours, days, months, leap days and years, gives a capture time exactly one minute later, and every minute from 1 January 1969 to 31 December 2068 has exactly one header time.",
 "all accepted inputs, all product labels and WMO numbers, all valid civil times of the hundred years",
 "36525 days of 1440 minutes for every input; month ends, leap days and the century pivot are easily missed",
 ["header.go:parseHeader", "radolan.go:Composite"])
add("Header text beyond ASCII does not matter",
 "The values of header fields the library does not evaluate may contain any bytes but the delimiter and ASCII capitals (UTF-8, Latin-1, malformed UTF-8, accented capitals) as long as they end in an ASCII character: the input is parsed exactly as the input with a question mark for each byte beyond ASCII, to the same composite or the same error. Values without capital letters, ASCII or UTF-8 encoded, are kept byte by byte when the header is split.",
 "all headers of upper-case keys with such values, all data sections, every table of upper-case letters beyond ASCII",
 "all byte strings, including every ill-formed UTF-8 sequence and runes at the boundaries of fields",
 ["header.go:splitHeader", "header.go:parseHeader"])
add("Decoded values for every precision a header can announce",
 "The precision field of the header is any integer p. While |raw 10^p| is at most 3.4e38 and p <= 38 the decoded float32 is finite and differs from raw 10^p (for reflectivities from raw 10^p / 2 - 32.5) by a relative error of 2^-22, in the subnormal range by at most |raw| 2^-148, so raw zeros decode to zero; from 3.41e38 on it is infinite with the sign of the raw value. With p >= 39 raw zeros decode to NaN, that is, to missing data. For every p a larger raw value never decodes to a smaller value.",
 "all integers p and all raw values of up to 12 bits with sign, reflectivities and other units",
 "unbounded precisions, subnormal numbers and overflow for every raw value",
 ["header.go:parseHeader", "conversion.go:rvp6Raw", "conversion.go:toDBZ", "singlebyte.go:decodeSingleByte", "littleendian.go:decodeLittleEndian"])
add("The error names the defect",
 "The checks a file has to pass are performed in a fixed order (header at least 21 bytes; data length; capture time; forecast time; interval; dimensions; precision; level field; format version; no dimension zero; known encoding and complete lines, or line by line terminator, offset byte and fit of the runs). For every file whose parsing does not panic NewComposite returns an error exactly if a check fails, and the text of the error is the text belonging to the first check that fails; a file is accepted exactly if no check fails. Any input whatever is reported as a too short header exactly if no delimiter comes after at least 21 bytes without one.",
 "all headers of ASCII fields (too short: all byte sequences), all data sections of any length",
 "every combination of defects in unbounded headers and data sections",
 ["header.go:parseHeader", "data.go:parseData", "data.go:identifyEncoding", "data.go:parseUnknown", "singlebyte.go:readLineSingleByte", "littleendian.go:readLineLittleEndian", "runlength.go:readLineRunlength", "runlength.go:decodeRunlength", "radolan.go:newError", "radolan.go:NewComposite"])
add("The border of Germany in the picture",
 "For every grid with a projection at every resolution, Project maps each of the 12492 points of the border of Germany that radolan2png draws to a place inside the grid, and radolan2png gives the pixel containing that place the border colour or the mesh colour. Exception: the 900x900 km grid ends at the northern tip of Germany; the claim holds for the points south of 54.89 N, while those north of 54.91 N are projected above the picture, and some that lie less than a pixel above it are drawn on its first row nevertheless.",
 "all points of the table, all grids and resolutions, all accepted files, all math libraries of the stated accuracy",
 "all resolutions and files, every point of a large table, floating point arithmetic of any conforming math library",
 ["radolan2png/borders.go:border", "radolan2png/radolan2png.go:convert", "projection.go:Project", "projection_sphere.go:projectSphere", "projection_wgs84.go:projectWGS84"])
add("Every pixel can be addressed",
 "On every grid with a projection, at every resolution of up to a hundred million pixels along each edge, there is for every pixel a float64 latitude and longitude that Project maps into that pixel. Machines with different math libraries agree on where a coordinate lies: Project differs by at most two billionths of the number of pixels along the edge.",
 "all pixels of all grids at all resolutions, all math libraries of the stated accuracy (any two of them for the comparison), all coordinates from 45 S to the north pole",
 "existence for every pixel of every resolution; all pairs of conforming math libraries",
 ["projection.go:Project", "projection.go:calibrateProjection", "projection_sphere.go:projectSphere", "projection_wgs84.go:projectWGS84"])
add("Size of an accepted picture",
 "Whatever the input, an accepted file without level table has at least one byte per pixel of the composite besides the header, and one with a level table at least one byte per row; so neither can make NewComposite return more rows than the file has bytes. The width of a run-length encoded composite however is not bounded by the file: for every number of rows and every width the runtime can allocate at all there is a file of at most 80 bytes plus one byte per row that is accepted with a composite of that size.",
 "all inputs of any length; all numbers of rows and columns up to the allocation limit",
 "a bound over all byte sequences, and existence for all dimensions up to 2^46",
 ["radolan.go:NewComposite", "data.go:parseData", "data.go:identifyEncoding", "runlength.go:parseRunlength"])
add("Colours do not depend on how floating point operations are fused",
 "The Go specification lets a compiler fuse floating point operations (for instance into a multiply-add with one rounding) within and across statements. Whatever combination of fusing and separate rounding is used, the colour of a pixel of a returned composite is the documented one up to the same tolerance: reflectivities black below 1 dBZ, then the colour of the HSL gradient at (v-1)/74, from 75 dBZ on its end; precipitation black below 0.1 mm, then the gradient at log(v/0.1)/log(max/0.1), from the maximum on its end; echo tops gray of brightness v/15, at most white; velocities pale up to 1 m/s and above red or cyan of brightness log|v|/log 31.5, at most full. The separately rounded evaluation of the model is one of the permitted ones.",
 "all inputs NewComposite accepts without error, all finite pixel values, all permitted ways to fuse operations, all conversions the specification leaves open",
 "a test only sees the code one compiler generates for one architecture; the permitted evaluations cannot be enumerated",
 ["radolan2png/vis/vis.go:Heatmap", "radolan2png/vis/vis.go:Graymap", "radolan2png/vis/vis.go:Radialmap", "radolan2png/radolan2png.go:main"])
add("The picture of a run-length coded file shows the level of every pixel",
 "A run-length coded file with any level table and any class codes is converted by radolan2png to a picture with one pixel per pixel of the map (of the lowest layer of a volume, without the side view of a local product), and - except where the mesh or the borders are drawn - the colour is the documented one of the pixel's level: reflectivities black below 1 dBZ, then a linear gradient up to light violet from 75 dBZ on; echo tops gray from black at 0 to white at 15 km; velocities pale up to 1 m/s, then red or cyan of logarithmic brightness up to 31.5 m/s; precipitation black for none, visible from 0.1 mm on, a logarithmic gradient up to 100 mm; class code 0 and codes beyond the level table are drawn as missing.",
 "all labels, times, station texts, sizes, level tables of tenths with up to four digits and class codes the format can express",
 "sample files cover a few level tables and codes; the pipeline of run-length decoding, level lookup, layer selection and colour arithmetic must agree for every file",
 ["radolan2png/radolan2png.go:main", "radolan2png/vis/vis.go:Image", "runlength.go:parseRunlength", "header.go:parseHeader", "radolan.go:NewComposite"])
add("Colours by the value a file states, for every unit, encoding and precision",
 "A file with one or two bytes per pixel and any precision E-37 .. E+34 is converted by radolan2png to a picture in which - except where the mesh or the borders are drawn - the colour of a pixel is the documented one of the exact decimal value the file states (raw number times power of ten; for reflectivities half of it minus 32.5): rounding never moves a value across a threshold of the colour scale, neither 1 or 75 dBZ, nor 0 or 15 km, nor 0, 1 or 31.5 m/s, nor the end of the precipitation scale. The only exception is exactly 0.1 mm: with precision -2 or -4 it is decoded to the float32 below 0.1 and drawn black, with precision -1 or -3 it is the first visible amount. Missing data gets its own colour.",
 "all file contents of any size the image can hold, all labels of a known unit, precisions -37..34, all raw numbers, all float implementations",
 "the float32 product of raw number and power of ten is inexact; that every one of the raw numbers at every precision stays on its side of every threshold is not visible in samples (and fails for 0.1 mm at precision -2)",
 ["conversion.go:rvp6Raw", "conversion.go:toDBZ", "littleendian.go:rvp6LittleEndian", "singlebyte.go:rvp6SingleByte", "radolan2png/radolan2png.go:main", "radolan2png/vis/vis.go:Heatmap"])
add("Looking up the value at a place",
 "For a file on a grid with a projection, x, y := c.Project(lat, lon); c.At(int(x), int(y)) gives, for every place between 45 S and the north pole that is not within a billionth of the grid of a pixel boundary, the value the file has for the pixel in which the exact projection of the place lies, and NaN when the place lies outside the grid; only the strip of one pixel to the left of and above the grid is attributed to the first column and row, because Go truncates toward zero. This holds however the compiler fuses floating point operations and whatever the hardware does with conversions that overflow (none occurs). Every pixel of the file is found by some place. The same holds for run-length coded pictures, with the nearest float32 to the level of the pixel, NaN for missing pixels.",
 "all contents of files with fixed-width pixels and all run-length coded pictures, all grids and resolutions, all latitudes from 45 S to 90 N and longitudes within two turns, all math libraries of the stated accuracy, all permitted fusions, all implementations of out of range conversions",
 "combines decoding, row order, calibration, float64 error and truncation; a test sees a few places of a few files on one machine",
 ["projection.go:Project", "radolan.go:At", "radolan.go:AtZ", "singlebyte.go:parseSingleByte", "littleendian.go:parseLittleEndian"])
add("The documented example: rainfall at a place",
 "The example of the package documentation, x, y := c.Project(52.51861, 13.40833); dbz := c.At(int(x), int(y)); radolan.PrecipitationRate(radolan.Doelling98, dbz), gives for every reflectivity file of precision 0 at one kilometre per pixel the rainfall rate (Z = 316 R^1.5), to ten digits, of the reflectivity the file states for the pixel of Berlin - column 763, row 267 of the national grid, and its documented counterparts on the other grids - and NaN when the file has no data there. On every grid at every resolution Berlin is projected to its place to a metre, and the same three lines give the rate of the pixel for every other place, NaN outside the grid.",
 "all reflectivity files of precision 0 with one or two bytes per pixel (raw numbers -191..321), all grids, all math libraries of the stated accuracy, all permitted fusions, all implementations of out of range conversions; for the general form all places between 45 S and the pole away from pixel boundaries and all resolutions",
 "the composition of parsing, decoding, calibration, projection, truncation and the Z-R formula is only sampled by tests",
 ["radolan.go:Composite", "projection.go:Project", "radolan.go:At", "conversion.go:PrecipitationRate", "conversion.go:Doelling98"])
add("Z-R conversions and decoded pixels do not depend on fused operations",
 "The Go specification lets a compiler combine floating point operations, also across statements and function calls, and skip the intermediate rounding. Whatever it combines in NewZR, PrecipitationRate and Reflectivity, a rate is finite, positive and within 10^-10 (relative) of the exact one, a reflectivity is finite and within 10^-7 dBZ plus 10^-7 of its value, and converting a reflectivity to a rate and back returns the same float32 from 1/8 to 128 dBZ, converting a rate to a reflectivity and back the rate to 10^-5, and larger reflectivities give larger rates. Whatever it combines in decoding a pixel: the value of a product not in dBZ is the same number as without fusion, a reflectivity of precision 0 is exactly half the raw value minus 32.5, one of any other precision keeps the error bound of C09, and larger raw values give larger reflectivities, even if two pixels are evaluated differently. The results with every operation rounded are among the permitted ones.",
 "all permitted evaluations, all parameters 1 <= a <= 10^4, 1/2 <= b <= 10, all float32 reflectivities up to 128 dBZ and rates 10^-30..10^30, all math libraries of the stated accuracy; all raw values of 12 bits and sign, all precisions -37..34",
 "a test runs one compiler on one architecture",
 ["conversion.go:NewZR", "conversion.go:PrecipitationRate", "conversion.go:Reflectivity", "conversion.go:toDBZ", "conversion.go:rvp6Raw", "singlebyte.go:rvp6SingleByte", "littleendian.go:rvp6LittleEndian"])
add("What radolan2png prints",
 "For every well-formed product of the catalog radolan2png prints one line with the two letters of the product, the name of its unit and the civil time (UTC) of the header plus the forecast offset, counted minute by minute on the calendar; for a product on a known grid, and only then, a second line with the nominal edges of the grid in kilometres, printed with one digit after the point, which is a zero. Whether the output file can be created or encoded changes nothing. Two such outputs are equal only if product, unit and forecast time are. Nothing is printed for a file that is missing, unreadable or rejected by the parser (also because of an unknown unit). With fewer than two arguments the usage text with the program name is printed.",
 "all well-formed products with fixed-width pixels and all well-formed run-length coded pictures (all header values, sizes and pixels), all operating system behaviours, all math libraries of the stated accuracy",
 "a test compares a few outputs; the calendar, forecast and resolution space is unbounded",
 ["radolan2png/radolan2png.go:main", "radolan2png/radolan2png.go:convert", "catalog.go:String", "header.go:parseHeader"])
add("Meridians, parallels and the pole on the picture",
 "On every grid with a projection the place of a point on the picture is, within a billionth of the edge, the place of the pole plus a vector whose direction is the longitude minus 10 degrees (counted from the bottom to the right) and whose length in kilometres depends on the latitude only, is zero at the pole and falls strictly northwards: meridians are straight lines from the pole, parallels circles around it. The pole lies above the picture, the meridian 10 E is a vertical line that crosses it, points equally far east and west of it are mirror images, a full turn of longitude changes nothing, and the pole has one place whatever longitude it is given.",
 "all composites with a projection at all resolutions, all float64 latitudes from 45 S to the pole and longitudes within +-360 degrees, all math libraries of the stated accuracy",
 "continuum of coordinates; geometric relations between arbitrary points",
 ["projection.go:Project", "projection.go:calibrateProjection", "projection_sphere.go:projectSphere", "projection_wgs84.go:projectWGS84"])
add("Marks lie where the map says",
 "On the picture radolan2png draws of an accepted file on a grid with a projection, the overlay is at the exact geographic places: for every place of the mesh (every tenth of a degree on the parallels 46, ..., 54 N and on the meridians 1, 2, 3, 4, 5.1, 6.1, ..., 15.1 E) whose exact projection lies inside a pixel, not within two billionths of the grid of its edge, that pixel has the mesh colour; likewise every point of the border table, with the border or mesh colour; and a pixel that the exact projection of none of these places touches shows the colour of its value. (Points up to one pixel left of or above the grid count for the first column and row.)",
 "all accepted files, all grids and resolutions, all pixels, all mesh places and border points, all math libraries of the stated accuracy, all implementations of out of range conversions",
 "the mesh is generated by accumulating a rounded 0.1 and each point passes through trigonometric functions and a truncation; only a bound on all these errors for every grid and resolution shows that no mark is a pixel off",
 ["radolan2png/radolan2png.go: main (border, mesh)", "projection.go: Project", "projection_sphere.go", "projection_wgs84.go"])
add("Distances measured on the picture",
 "A program that reads Rx, Ry and the pixel coordinates Project gives for two places measures distances: (1) on the spherical grids (format versions before 5) the pixel distance times the pixel size is, to a centimetre, the straight-line distance on the sphere of radius 6370.04 km times the geometric mean of the map scales (1 + sin 60) / (1 + sin latitude) at both places; (2) between 40 N and 60 N it is therefore never shorter than the straight-line distance and at most 14 percent longer; (3) on every grid and for both earth models, between 40 N and 60 N, a step of a degrees of latitude and b degrees of longitude is at most 130 a + 100 b kilometres along each axis of the picture. All of this whatever multiplications and additions the compiler fuses.",
 "all grids with a projection and all resolutions, all pairs of places of the northern hemisphere (respectively between 40 N and 60 N), all math libraries of the stated accuracy, all permitted fusions",
 "the claim relates two arbitrary places through trigonometry, calibration and scaling in rounded arithmetic; tests can only compare a few pairs of reference points",
 ["projection.go: calibrateProjection, Project, Rx, Ry", "projection_sphere.go: projectSphere", "projection_wgs84.go: projectWGS84"])
add("The map is the documented polar stereographic projection",
 "For every composite on a grid with a projection, Project returns the pixel coordinates of the documented map: with X, Y the textbook polar stereographic coordinates (sphere of radius 6370.04 km before format version 5; WGS84 ellipsoid, Snyder's formulas, from it on; true to scale at 60 N, 10 E pointing down), the result is ((X - X0) / (X1 - X0) Dx, (Y - Y0) / (Y1 - Y0) Dy) for the documented corners 0 (top left) and 1 (bottom right) of the grid, to a billionth of the picture, for every place between 45 S and the north pole, whatever operations the compiler fuses. Rx and Ry are the extent of the grid on that map divided by the number of pixels, to two parts in a billion, and the eccentricity used is that of the WGS84 semi-axes.",
 "all composites with a grid (every resolution), both earth models, all places from 45 S to the north pole and all longitudes up to 360 degrees, all math libraries of the stated accuracy, all permitted fusions",
 "the code computes the map from pre-computed constants, offsets and a calibration in rounded arithmetic; agreement with the documented formulas at every place is a statement about real functions",
 ["projection.go: cornerPoints, calibrateProjection, Project", "projection_sphere.go: projectSphere", "projection_wgs84.go: projectWGS84, proj_DE1200_WGS84"])
add("Exact verdict on every input",
 "Whatever bytes an input consists of (repeated keys, keys without value at the end, texts that do not begin with a key, keys only, UTF-8 letters and white space, malformed UTF-8): the input has exactly one reading as key/value fields (or no delimiter, then it is called too short), and under this reading NewComposite accepts it exactly if every check of header and data section passes, panics exactly if the header is in order and its nonzero dimensions cannot be allocated, and otherwise returns exactly the error that names the first failing check.",
 "all byte strings, all math environments, every table of upper-case letters beyond ASCII",
 "the input space is unbounded and the three-way exact characterisation (accept, panic, each error text) must hold on every input, including degenerate headers no test corpus contains",
 ["header.go: splitHeader, parseHeader", "data.go: parseData, identifyEncoding", "radolan.go: NewComposite"])
add("Contents of every accepted file, whatever its header says",
 "For every accepted input (any reading of the header, including repeated keys and a key without value at the end): Product, Px, Py, Dx, Dy, Format, CaptureTime, ForecastTime and Interval are what the header fields state, with the numbers Go's scanner reads and 64-bit arithmetic; without a level field every pixel is the value of its one or two bytes under the stated precision, the encoding being decided by the announced length; with a level field every row is what its line means for the levels of the table (C99).",
 "all accepted inputs, all pixels, all field values including those beyond the range of well-formed fields",
 "ties attributes and pixel values to the bytes of every accepted file, with no assumption on how the header fields are written",
 ["header.go: splitHeader, parseHeader", "data.go: parseData", "singlebyte.go", "littleendian.go", "runlength.go"])
add("Exit status of radolan2png for every input file",
 "If the input can be read, the output can be created and the picture encodes, the exit status of `radolan2png in out` is decided by the contents of the input: 0 exactly if the file is fine (C93), its product label is in the catalogue of units and four bytes for each pixel of its picture can be allocated; 1 (log.Fatal) exactly if something is wrong with the file or its label is not in the catalogue; 2 (a panic) exactly if the header is in order but declares impossible dimensions, or the picture is too large. Unless the status is 0, no file is created or changed.",
 "all contents of the input file, all file systems, paths and further arguments",
 "scripts that convert archives rely on the exit status for files nobody has seen; tests see only sample files",
 ["radolan2png/radolan2png.go: main, convert", "radolan.go: NewComposite", "radolan2png/vis/vis.go: Image"])
add("Exact verdict on every archive",
 "What NewComposites makes of an archive is decided by the bytes of its entries, whatever they are: it succeeds exactly if the archive is intact and every entry is fine (C93) with a label in the catalogue of units; otherwise the first entry that is not good decides - the error text names what is wrong with it (no delimiter, the first failing check, or an uncatalogued label), or the program panics because its header is in order but declares impossible dimensions; a damaged archive is an error exactly if all entries before the damage are good. The composites returned are one for each entry, in ascending order of forecast time, with the attributes and pixels the entry states (C94).",
 "all lists of entries of arbitrary bytes, intact or damaged, every sorting algorithm that satisfies the contract of sort.Slice",
 "combines an unbounded list of entries with an exact three-way characterisation of each; tests try a handful of archives",
 ["radolan.go: NewComposites, NewComposite", "header.go: splitHeader, parseHeader", "data.go: parseData"])
add("The picture does not depend on how the compiler fuses operations",
 "Go lets a compiler fuse floating point operations across statements, so a product and a following sum may be rounded once. Whatever is fused - in the calibration of the projection, in each single call of Project, in the colour of each single pixel - the picture radolan2png writes has the size of the grid, and each pixel shows the mesh colour if the true position of a mesh place lies inside it, the border colour if no mesh place touches it and a border point lies inside it, and a colour permitted for its value (C82) if neither touches it, with a tolerance of two billionths of the edge around the pixel boundaries. Two binaries compiled from the same source therefore mark the same pixels except where a place is within that tolerance of a boundary. The picture with every operation rounded separately is one of these.",
 "all accepted files on a grid with a projection (and, for the values, without one), all fusions chosen independently for every call and pixel, all accurate math libraries, all implementation-defined conversions",
 "the choice of fused operations is made by the compiler per platform; a test runs one binary on one machine",
 ["radolan2png/radolan2png.go: main, drawPoints", "radolan2png/vis/vis.go: Image, Heatmap, Graymap", "projection.go: calibrateProjection, Project", "borders.go: border"])
add("From the bytes of a file to the colours of its picture, under every fusion",
 "Whatever operations the compiler fuses - in decoding a pixel, in computing its colour, in calibrating the projection, in placing each mark - the picture radolan2png writes of a file shows at every pixel that no mark touches the colour of the exact decimal value the file states, with the same thresholds as with every operation rounded (C84): black below 1 dBZ and the last colour from 75 dBZ on; black up to 0 km and white from 15 km on; the pale colours up to 1 m/s and the full ones from 31.5 m/s on; black below 0.1 mm (at 0.1 mm exactly for the precisions -2 and -4) and the last colour above the largest amount of the gradient, at which it may be one level off; missing values in the colour of missing values. The marks are where C97 says. The picture with every operation rounded is one of these.",
 "all well-formed files with a catalogued product, every precision from -37 to 34 and every raw value, all fusions chosen independently for every pixel, call and mark, all accurate math libraries, all implementation-defined conversions",
 "thresholds are hit exactly by stored decimals, and whether they still are depends on the fusion the compiler chose for the platform; a test sees one binary",
 ["littleendian.go: rvp6LittleEndian", "singlebyte.go: rvp6SingleByte", "conversion.go: rvp6Raw, toDBZ", "radolan2png/vis/vis.go: Heatmap, Graymap, Radialmap, Image", "radolan2png/radolan2png.go: main, drawPoints", "projection.go: calibrateProjection, Project"])
add("Exactly which level tables are read, and to which levels",
 "The level field of a file is read exactly if it is a table: two characters that begin with a number n, then n entries of five characters, each of which is white space, a number and possibly something that does not go on with it. Otherwise the file is an error. The numbers are the decimals of the format F5.1 (read to the nearest float32), but also numbers with exponent, with underscores between digits, hexadecimal numbers, decimals with binary exponent, nan and infinities; each text has one value, the float32 the correctly rounded number is. A level is finite unless its text contains an n or a p. The levels are those the lines of the file are decoded with (C94).",
 "all level fields of all files, whatever the other fields and the data are",
 "the texts fmt.Sscanf accepts for a five character field are some 10^9; a test tries the format F5.1",
 ["header.go: parseHeader (LV)"])
add("Scale of the map and distances, on sphere and ellipsoid",
 "On every grid with a projection, for the sphere of the formats before 5 and for the WGS84 ellipsoid of the later ones: around every place the exact map is the surface of the earth scaled by a factor that is the same in all directions (against the principal radii of curvature), depends on the latitude only, falls strictly northwards and is 1 at 60 N to a billionth; between 40 N and 60 N, where all grids lie, it is between 1 and 1.14. A program that measures the distance of two places between 40 N and 60 N with Project and Rx, Ry therefore never gets more than 3 centimetres less than the length of the straight line between the places on the sphere or the ellipsoid, and at most 14 percent more, whatever operations the compiler fuses.",
 "all grids and resolutions, both earth models, all places (all latitudes but the poles for the scale; 40 N to 60 N and all longitudes for distances), all math libraries of the stated accuracy, all permitted fusions",
 "pairs of places are a four-dimensional continuum; a test compares a few distances with a table",
 ["projection.go: Project, calibrateProjection", "projection_wgs84.go: projectWGS84", "projection_sphere.go: projectSphere"])
add("Archives as streams of bytes",
 "NewComposites on the decompressed bytes of an archive, delivered by any reader in any chunks: from members (header, content, padding) and the end mark, a single block of zeros or nothing, it parses exactly the contents of the members in order, whatever names, modes, owners, times and padding are stored with them. A stream that breaks off inside a header loses the member and one that breaks off inside a content is damaged, so that NewComposites does not succeed; one that ends between members or inside the padding is read as a complete shorter archive if it ends with io.EOF, and never yields a result if it ends with any other error before the end mark. A single wrong byte in a header outside of the checksum field is always detected, and so is a block whose checksum field does not begin with an octal digit. An archive with a directory, link, device or fifo is always rejected (as a composite with a header that is too short). A stream of fewer than 512 bytes gives an error, an empty stream an empty result without error. For every stream without extension headers NewComposites returns, with a result determined by the bytes and the final error alone.",
 "all sequences of members with well-formed headers (ustar, V7, GNU), all contents and paddings, all positions of a cut or a wrong byte, all bytes after the end mark, all readers and chunkings, all final errors; for the last part all byte streams",
 "the positions of cuts and errors in archives of all lengths, and the ways a reader can split the stream, are unbounded",
 ["radolan.go: NewComposites"])
add("Go's sine, cosine and tangent",
 "The code of math.Sin, math.Cos and math.Tan, compiled with any fusion of operations the language permits, returns finite numbers within 7e-16 of the true sine and cosine for all arguments up to 8 rad, and within 1e-14 of the true tangent for all arguments up to 1.2 rad. Hence the assumptions the projection properties make about these functions hold of Go's library, and for composites with a format version below 5 Project is accurate to a billionth of the grid, hits the documented reference points and has accurate resolutions without any assumption about the math library.",
 "all float64 arguments in the ranges, all subsets of operations that are fused, all implementations of the reduction of arguments of 2^29 and more; all grids with a projection and a format version below 5, all points from 45 S to the pole",
 "there are about 2^62 arguments, each with many permitted results, and the error must be compared with real functions",
 ["projection_wgs84.go: projectWGS84", "projection_sphere.go: projectSphere", "projection.go: Project"])
add("Go's power and decadic logarithm",
 "The code of math.Pow and math.Log10, using an exponential accurate to ten and a logarithm and square root accurate to two units in the last place, is within 5e-15 of the true power for bases in [1/2, 2] and exponents in [0, 1/10], within a relative error of 1e-13 for bases in [1, 10^4] and exponents up to 200, and within 1e-13 of the decadic logarithm, for results between e^-100 and e^100; x^0 = 1^y = 1, x^1 = x and NaN is propagated otherwise. Hence all assumptions the projection and Z-R properties make about Pow and Log10 follow from the accuracy of Exp, Log and Sqrt: positions of every grid are accurate to a billionth of it and rates to 1e-10.",
 "all float64 bases, exponents and arguments in the ranges, all exponentials, logarithms and square roots with the stated accuracy, fused or separately rounded addition in Log2; all grids, parameters 1 <= a <= 10^4, 1/2 <= b <= 10 and reflectivities up to 128 dBZ",
 "the power is computed by repeated squaring of a mantissa with separate bookkeeping of exponents; its error grows with the exponent and must be bounded against a real function for all 2^128 pairs",
 ["conversion.go: NewZR, PrecipitationRate, Reflectivity (Pow, Log10)", "projection_wgs84.go: projectWGS84 (Pow)"])
add("Go's exponential and logarithm",
 "The code of math.Exp (the Go code and the assembly for amd64) and math.Log, with any fusion of operations the language permits, returns finite numbers with a relative error of at most 22e-16 for arguments up to 5 (exponential) and an error of at most 4e-16 times one plus the logarithm for every positive argument (logarithm); the exponential of NaN, +Inf and -Inf is NaN, +Inf and 0, above 710 it overflows to +Inf, the logarithm of NaN and of negative numbers is NaN, of +Inf it is +Inf and of both zeros -Inf. With a correctly rounded square root nothing else has to be assumed about package math: positions of every grid are accurate to a billionth of it and rates to 1e-10.",
 "all float64 arguments in the ranges, both implementations of Exp, all subsets of operations that are fused in package math and in this package; all grids with a projection, all points from 45 S to the pole, all Z-R parameters 1 <= a <= 10^4, 1/2 <= b <= 10 and reflectivities up to 128 dBZ",
 "there are about 2^62 arguments, each with many permitted results, and the results must be compared with transcendental functions",
 ["conversion.go: NewZR, PrecipitationRate, Reflectivity (Pow, Log10)", "projection_wgs84.go: projectWGS84 (Pow)", "radolan2png/vis/vis.go: Log"])
add("No rain, infinities and every positive rate",
 "With package math as Go computes it (Exp in Go or in amd64's assembly, Log, Pow with its special cases, Log10) and however operations are fused, Reflectivity of a rate is finite exactly if the rate is positive and finite, -Inf exactly for a rate of zero of either sign, +Inf exactly for +Inf, and NaN exactly for negative rates and NaN; for every positive float64, denormal numbers included, it deviates from the exact reflectivity by at most 1e-7 dBZ plus 1e-7 of its value. PrecipitationRate of -Inf dBZ is zero, of +Inf it is +Inf, of NaN it is NaN. So no rain, +Inf and NaN survive a conversion in either direction and back. math.Log of every positive number is as accurate as the colours of the logarithmic scales (C64, C65, C72, C82 - C84, C98) require, math.Log10 of every positive number has an error of at most 1e-12, and Pow of zeros, infinities and infinite exponents follows the documented table.",
 "all Z-R parameters 1 <= a <= 10^4, 1/2 <= b <= 10; all float64 rates (finite, denormal, zero, negative, infinite, NaN), the special float32 reflectivities; both implementations of Exp; all subsets of operations that are fused in this package and in package math",
 "the classification is an equivalence over all 2^64 rates and a continuum of relations, each with many permitted evaluations",
 ["conversion.go: NewZR, PrecipitationRate, Reflectivity", "radolan2png/vis/vis.go: Log"])
add("The square root is rounded correctly: nothing is assumed about package math",
 "The square root of Go's package math in software returns for every finite number that is not negative, denormal numbers included, the float64 nearest to the exact root (it is unique: no two are equally near), with a relative error of at most 2^-53; it is exact for squares, never decreases, returns zeros, +Inf and NaN unchanged and NaN for negative numbers. So every processor instruction that is rounded correctly, as IEEE 754 requires, returns the same bits for every positive number, and Pow, on which the conversions rest, returns the same with either. With this square root the accuracy of sine, cosine, tangent, powers and logarithms assumed by the other properties follows from the source code of package math alone, however its operations are fused.",
 "all float64 (finite, denormal, zero, negative, infinite, NaN); all correctly rounded square roots; both implementations of Exp; all subsets of operations that are fused in package math",
 "2^63 positive arguments, each compared with all other float64; agreement is claimed with every correctly rounded implementation",
 ["conversion.go: NewZR, PrecipitationRate, Reflectivity", "projection_wgs84.go", "radolan2png/vis/vis.go: Log"])
add("A compressed archive is decompressed exactly",
 "NewComposites reads its argument through a bzip2 decompressor. For every file a bzip2 compressor can write - one stream or several, any block size, any division of the data into blocks, any coding of runs, any complete Huffman tables of up to 20 bits and any choice of tables - the decompressor restores exactly the compressed data, in portions of any size, accepts all checksums and then reports the error with which its argument ends. The data are determined by the file. So NewComposites of a compressed archive returns exactly the composites of the members of the archive, in order.",
 "all data, all compressed files of them (block sizes, blocks, run codings, tables, selectors, several streams), all sizes of buffers, all errors at the end of the file",
 "unbounded data; a test sees the files of one compressor, the format leaves the compressor many choices",
 ["radolan.go: NewComposites"])
add("The decompressor survives every file",
 "NewComposites hands its argument to a bzip2 decompressor, whatever the bytes are. For every file - compressed, truncated, corrupted or arbitrary - however the reader behind it ends and after any number of earlier reads with buffers of any sizes, a read returns: it does not panic (no index outside an array, no Huffman tree too deep or too large), does not run on, returns at most as many bytes as were asked for, and an empty result of a non-empty request comes with an error; between reads it never holds more than one block of 900000 table entries, however large the data are the file expands to.",
 "all byte strings as files, all errors at their end, all histories of reads with buffers of all sizes",
 "corrupted archives are unbounded in number; a crash needs the one bit pattern that drives an index out of its array",
 ["radolan.go: NewComposites"])
add("The end of the data is reported only after right checksums",
 "For every file handed to NewComposites as a compressed archive: when the decompressor reports io.EOF, it comes without bytes, and the data delivered before are those of one or several complete streams - every block's data have the checksum that stands before the block, the combination of the checksums stands at the end of the stream, and nothing but padding follows the last stream. A file that does not pass (truncated, damaged) never ends with io.EOF but with another error. Data that deviate from the original only within 32 successive bits have another checksum.",
 "all byte strings as files, all errors at their end, all histories of reads with buffers of all sizes; all pairs of data with a burst of up to 32 bits",
 "damaged files are unbounded in number; that no sequence of blocks, streams and buffer sizes slips past the test is an invariant of all histories",
 ["radolan.go: NewComposites"])
add("A compressed file stands for one sequence of bytes, whatever it contains",
 "For every file handed to NewComposites as a compressed archive - complete, truncated, damaged or not compressed at all: unless a read of the decompressor can return bytes together with an error, the file stands for one sequence of bytes and one error, the same whatever the sizes of the buffers it is read with; if the error is io.EOF, those bytes passed the checksums; and NewComposites returns the result for a sequence of entries and damage determined by those bytes and that error.",
 "all byte strings as files, all errors at their end, all sequences of buffer sizes",
 "the way in which a reader cuts its requests is unbounded, and so are damaged files; that the cut never shows in the result is a relation between all histories of two readers",
 ["radolan.go: NewComposites"])
with open("/verif/properties.jsonl","w") as f:
    for p in P: f.write(json.dumps(p,ensure_ascii=False)+"\n")
print(len(P))
