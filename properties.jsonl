{"id": "C01", "title": "Edge set is exactly the set of triangle sides", "statement": "After read_delaunay(points, tri), mesh.edges has exactly one entry for every unordered pair of node ids that are two corners of a common triangle, its key is that pair in increasing order and the edge's n1, n2 are those nodes; there are no other entries.", "quantifier": "every list of points and every list of triangles with in-range, pairwise distinct corner indices", "why_tests_cant": "the two tests only count edges of one 9-point and one 16-node mesh", "anchors": ["meshless/espim/read_mesh.py::read_delaunay", "meshless/espim/classes.py::Edge"]}
{"id": "C02", "title": "Edge to triangle incidence", "statement": "edge.trias lists exactly the triangles that have both end nodes of the edge as corners, each once and in element order; in particular it is never empty.", "quantifier": "every mesh built by read_delaunay from triangles with distinct corners, and every edge of it", "why_tests_cant": "needs every mesh topology, not one example", "anchors": ["meshless/espim/read_mesh.py::read_delaunay"]}
{"id": "C03", "title": "Triangle to edge incidence", "statement": "tria.edges contains exactly the three edges of the triangle, each once.", "quantifier": "every mesh built by read_delaunay from triangles with distinct corners, and every triangle", "why_tests_cant": "order of dict iteration and sharing differ per mesh", "anchors": ["meshless/espim/read_mesh.py::read_delaunay"]}
{"id": "C04", "title": "Node incidence sets", "statement": "node.trias is exactly the set of element ids of triangles having that node as a corner, and node.edges exactly the set of edges ending at that node.", "quantifier": "every mesh built by read_delaunay, every node", "why_tests_cant": "no test looks at these sets", "anchors": ["meshless/espim/read_mesh.py::read_delaunay"]}
{"id": "C05", "title": "Points and triangles are preserved by read_delaunay", "statement": "Point number i becomes node nid i+1 with the same x, y (and z, or z = 0 for 2-D points), triangle number k becomes element eid k+1 whose corners are the nodes of the given indices in the given order; a point index out of range raises IndexError.", "quantifier": "every list of 2-D/3-D points and every list of index triples", "why_tests_cant": "unbounded sizes and values", "anchors": ["meshless/espim/read_mesh.py::read_delaunay"]}
{"id": "C06", "title": "Side counting identity", "statement": "The sum over all edges of len(edge.trias) is three times the number of triangles, so #boundary edges + 2 * #interior edges = 3 * #triangles when no edge has more than two triangles.", "quantifier": "every list of points and triangles accepted by the readers", "why_tests_cant": "a counting identity over all meshes", "anchors": ["meshless/espim/read_mesh.py::read_delaunay", "meshless/espim/read_mesh.py::read_mesh"]}
{"id": "C07", "title": "read_mesh accepts only CTRIA3 and otherwise agrees with read_delaunay", "statement": "read_mesh raises NotImplementedError as soon as the deck holds any element that is not a CTRIA3; on a deck holding the same nodes and triangles as given to read_delaunay both readers produce the same nodes, triangles, edges and incidence data. From any deck with distinct ids it keeps ids, order, coordinates, coordinate systems and corner order, sets every prop to None, raises KeyError if a corner is no node, and fills edge.trias, tria.edges, node.trias and node.edges exactly.", "quantifier": "every parsed deck (result of read_bdf) and every matching Delaunay input", "why_tests_cant": "all decks", "anchors": ["meshless/espim/read_mesh.py::read_mesh", "meshless/espim/read_mesh.py::read_delaunay"]}
{"id": "C08", "title": "Degenerate connectivity never yields a stiffness matrix", "statement": "If some triangle repeats a corner, the readers accept it but calc_k0 always raises (ValueError for a missing property, otherwise KeyError or NotImplementedError) and never returns a matrix.", "quantifier": "every mesh built by read_delaunay containing a triangle with a repeated corner, any property assignment, both flags", "why_tests_cant": "failure depends on which edges come first", "anchors": ["meshless/espim/plate2d_calc_k0.py::calc_k0", "meshless/espim/read_mesh.py::read_delaunay"]}
{"id": "C09", "title": "Missing properties are reported before anything is changed", "statement": "If some node (flag True) / some triangle (flag False) that belongs to an edge has no property, calc_k0(mesh, prop_from_node) raises ValueError and leaves the mesh (edges, nodes, indices) unchanged; on a proper mesh with at least one node it raises ValueError in no other case.", "quantifier": "every mesh state reachable through the API, both flags", "why_tests_cant": "any subset of missing properties, any mesh", "anchors": ["meshless/espim/plate2d_calc_k0.py::calc_k0"]}
{"id": "C10", "title": "Non-manifold edges are rejected", "statement": "If all properties are present and some edge has more than two triangles, calc_k0 raises NotImplementedError (or an earlier edge's error) and never returns a matrix.", "quantifier": "every mesh built by the readers", "why_tests_cant": "all topologies", "anchors": ["meshless/espim/plate2d_calc_k0.py::calc_k0"]}
{"id": "C11", "title": "calc_k0 succeeds on every proper mesh", "statement": "For a mesh whose triangles have distinct corners, where no edge has more than two triangles and no two triangles share all three corners, and with the needed properties assigned, calc_k0 returns a (5n, 5n) matrix, n the number of nodes, without any exception (no index out of range, no unpacking error, no missing key).", "quantifier": "every such mesh of any size, both flags", "why_tests_cant": "index arithmetic and unpacking must work for every node numbering", "anchors": ["meshless/espim/plate2d_calc_k0.py::calc_k0"]}
{"id": "C12", "title": "Node numbering is a bijection", "statement": "After a successful calc_k0 the node.index values are 0..n-1, each used once, in the order in which nodes are stored in the mesh.", "quantifier": "every mesh", "why_tests_cant": "all sizes", "anchors": ["meshless/espim/plate2d_calc_k0.py::calc_k0"]}
{"id": "C13", "title": "Smoothing-domain area", "statement": "After calc_k0 edge.Ac is one third of the area of the triangle of a boundary edge, and one third of the sum of both triangle areas for an interior edge whose triangles lie on opposite sides.", "quantifier": "every planar mesh with valid geometry, every edge", "why_tests_cant": "all coordinates", "anchors": ["meshless/espim/plate2d_calc_k0.py::calc_k0", "meshless/utils.py::area_of_polygon"]}
{"id": "C14", "title": "Smoothing domains partition the plate", "statement": "The sum of edge.Ac over all edges equals the total area of all triangles.", "quantifier": "every planar mesh where adjacent triangles lie on opposite sides of their common edge", "why_tests_cant": "global identity over all meshes", "anchors": ["meshless/espim/plate2d_calc_k0.py::calc_k0"]}
{"id": "C15", "title": "Closed smoothing-domain boundary", "statement": "For every edge the sum over its integration points of le*nx and of le*ny is zero, whatever the orientation of the nodes.", "quantifier": "every planar mesh with no coincident points in a smoothing domain", "why_tests_cant": "all coordinates and orientations", "anchors": ["meshless/espim/plate2d_calc_k0.py::calc_k0", "meshless/espim/classes.py::IntegrationPoint"]}
{"id": "C16", "title": "Outward unit normals", "statement": "At every integration point nx^2+ny^2 = 1, nz = 0, and (nx, ny) is perpendicular to its boundary segment and points out of the smoothing domain.", "quantifier": "every planar mesh with non-degenerate triangles, every edge, both orientations of the edge", "why_tests_cant": "all coordinates and orientations", "anchors": ["meshless/espim/plate2d_calc_k0.py::calc_k0"]}
{"id": "C17", "title": "Integration points are segment midpoints", "statement": "Every integration point's xyz is the midpoint of its segment of the smoothing-domain boundary, le is the segment's length, and its three weights are non-negative and sum to one.", "quantifier": "every planar mesh, every edge", "why_tests_cant": "all coordinates", "anchors": ["meshless/espim/plate2d_calc_k0.py::calc_k0", "meshless/espim/classes.py::IntegrationPoint"]}
{"id": "C18", "title": "k0 is the smoothed strain energy", "statement": "For all nodal displacement vectors v, u: v^T k0 u equals the sum over edges of Ac * eps(v)^T [A B; B D] eps(u), eps being the boundary-integral smoothed membrane strains and curvatures of the edge's domain and A, B, D the edge's averaged properties.", "quantifier": "every proper planar mesh, every property assignment, both flags, all vectors v, u", "why_tests_cant": "256 hand-pasted formulas with an index remapping that depends on the node numbering", "anchors": ["meshless/espim/plate2d_calc_k0.py::calc_k0"]}
{"id": "C19", "title": "k0 is symmetric", "statement": "The matrix returned by calc_k0 is symmetric.", "quantifier": "every mesh, every property assignment (even with unsymmetric A, B, D input), both flags", "why_tests_cant": "all inputs", "anchors": ["meshless/espim/plate2d_calc_k0.py::calc_k0"]}
{"id": "C20", "title": "Rigid in-plane motions are strain free", "statement": "k0 @ d = 0 for d a uniform translation in x or y, an infinitesimal in-plane rotation (u = -y, v = x), a uniform rotation phix or phiy, and their linear combinations.", "quantifier": "every proper planar mesh and property assignment", "why_tests_cant": "all meshes, exact cancellation", "anchors": ["meshless/espim/plate2d_calc_k0.py::calc_k0"]}
{"id": "C21", "title": "k0 is positive semidefinite", "statement": "If every assigned laminate has a positive semidefinite [A B; B D] then d^T k0 d >= 0 for every d.", "quantifier": "every proper planar mesh with valid geometry, all vectors d, both flags", "why_tests_cant": "all vectors", "anchors": ["meshless/espim/plate2d_calc_k0.py::calc_k0"]}
{"id": "C22", "title": "Linear patch test for k0", "statement": "For nodal displacements sampled from a linear field (u, v, phix, phiy linear in x, y) the smoothed strain of every edge is the exact constant strain, so that d^T k0 d equals the sum over edges of Ac * eps^T [A B; B D] eps with that one eps (area times energy density for homogeneous properties).", "quantifier": "every valid planar mesh, every linear field", "why_tests_cant": "all meshes/fields", "anchors": ["meshless/espim/plate2d_calc_k0.py::calc_k0"]}
{"id": "C23", "title": "k0 leaves transverse displacement uncoupled and is local", "statement": "Every entry of calc_k0's matrix in a row or column 5*i+2 is zero, and the 5x5 block of two nodes is zero unless both nodes are corners of triangles adjacent to one common edge.", "quantifier": "every proper mesh", "why_tests_cant": "all meshes", "anchors": ["meshless/espim/plate2d_calc_k0.py::calc_k0"]}
{"id": "C24", "title": "Homogeneous plates: node and element properties agree", "statement": "If all nodes and all triangles carry the same laminate, calc_k0(mesh, True) = calc_k0(mesh, False), and the same for calc_kG.", "quantifier": "every valid planar mesh, every laminate", "why_tests_cant": "all meshes", "anchors": ["meshless/espim/plate2d_calc_k0.py::calc_k0", "meshless/espim/plate2d_calc_kG.py::calc_kG"]}
{"id": "C25", "title": "Corner order of triangles does not matter for k0", "statement": "Reversing or rotating the corner order of any triangles (clockwise / counter-clockwise input) leaves calc_k0's matrix unchanged.", "quantifier": "every proper planar mesh and every reordering of the corners inside triangles", "why_tests_cant": "all reorderings", "anchors": ["meshless/espim/plate2d_calc_k0.py::calc_k0", "meshless/espim/read_mesh.py::read_delaunay"]}
{"id": "C26", "title": "k0 is invariant under translation of the plate", "statement": "Adding the same vector to all node coordinates leaves calc_k0's matrix unchanged.", "quantifier": "every mesh, every translation vector", "why_tests_cant": "all meshes", "anchors": ["meshless/espim/plate2d_calc_k0.py::calc_k0"]}
{"id": "C27", "title": "calc_k0 does not depend on history", "statement": "After any sequence of calc_k0, add_k0s, calc_kG, property and coordinate changes, calc_k0 returns the same result as on a freshly read mesh with the current coordinates and properties; calling it twice in a row gives the same matrix and mesh state.", "quantifier": "every finite sequence of API calls", "why_tests_cant": "arbitrary histories", "anchors": ["meshless/espim/plate2d_calc_k0.py::calc_k0", "meshless/espim/plate2d_add_k0s.py::add_k0s", "meshless/espim/plate2d_calc_kG.py::calc_kG"]}
{"id": "C28", "title": "Connectivity is never changed by an analysis", "statement": "No sequence of calc_k0, add_k0s, calc_kG calls (successful or raising) changes node ids, coordinates, properties, triangles, edges or incidence data; only the derived attributes node.index, edge.Ac/ipts/sdomain/othernode1/othernode2 change.", "quantifier": "every finite sequence of calls including raising ones", "why_tests_cant": "arbitrary histories and failure points", "anchors": ["meshless/espim/plate2d_calc_k0.py::calc_k0", "meshless/espim/plate2d_add_k0s.py::add_k0s", "meshless/espim/plate2d_calc_kG.py::calc_kG"]}
{"id": "C29", "title": "kG is the geometric energy of the smoothed membrane forces", "statement": "For all v, w: v^T kG w equals the sum over edges of Ac * (smoothed gradient of v_w)^T [Nxx Nxy; Nxy Nyy] (smoothed gradient of w_w), with (Nxx, Nyy, Nxy) = A em(d) + B eb(d) for the displacement d given to calc_kG.", "quantifier": "every proper planar mesh after calc_k0, all d, v, w, both flags", "why_tests_cant": "index remapping with a dummy index that collides with node 0", "anchors": ["meshless/espim/plate2d_calc_kG.py::calc_kG"]}
{"id": "C30", "title": "kG is symmetric and acts on transverse displacement only", "statement": "calc_kG returns a symmetric matrix whose entries outside rows and columns 5*i+2 are zero.", "quantifier": "every mesh after calc_k0 and every d", "why_tests_cant": "all inputs", "anchors": ["meshless/espim/plate2d_calc_kG.py::calc_kG"]}
{"id": "C31", "title": "kG is linear in the displacement", "statement": "calc_kG(a*d1 + b*d2) = a*calc_kG(d1) + b*calc_kG(d2); in particular kG = 0 for d = 0.", "quantifier": "every mesh after calc_k0, all d1, d2, a, b", "why_tests_cant": "all inputs", "anchors": ["meshless/espim/plate2d_calc_kG.py::calc_kG"]}
{"id": "C32", "title": "Rigid motion produces no pre-stress", "statement": "calc_kG(d) is the zero matrix if d is a rigid in-plane motion combined with any transverse displacement and uniform rotations.", "quantifier": "every proper planar mesh", "why_tests_cant": "all meshes", "anchors": ["meshless/espim/plate2d_calc_kG.py::calc_kG"]}
{"id": "C33", "title": "Uniform transverse translation has no geometric stiffness", "statement": "kG @ d = 0 for d the uniform translation in z.", "quantifier": "every proper planar mesh, every pre-stress", "why_tests_cant": "all meshes", "anchors": ["meshless/espim/plate2d_calc_kG.py::calc_kG"]}
{"id": "C34", "title": "The dummy fourth node of boundary edges is harmless", "statement": "calc_k0 and calc_kG add nothing to rows/columns of a node that is not a corner of the edge's triangles, although boundary edges use a dummy index (-1, the last node, in calc_k0; 0, the first node, in calc_kG), even when the dummy coincides with a real corner.", "quantifier": "every proper mesh, every numbering", "why_tests_cant": "depends on which nodes get index 0 or n-1", "anchors": ["meshless/espim/plate2d_calc_k0.py::calc_k0", "meshless/espim/plate2d_calc_kG.py::calc_kG"]}
{"id": "C35", "title": "Unknown shear method is rejected without touching the matrix", "statement": "add_k0s raises ValueError for every method other than the three names, leaving k0 unmodified; for the three names it runs exactly the corresponding implementation with the given alpha and maxl_from_area.", "quantifier": "every method string, matrix and mesh", "why_tests_cant": "all strings", "anchors": ["meshless/espim/plate2d_add_k0s.py::add_k0s"]}
{"id": "C36", "title": "add_k0s is an additive in-place update", "statement": "add_k0s adds to k0 a matrix that depends only on the mesh, flag, method, alpha and maxl_from_area, not on the contents of k0; the given array is the returned array; calling it twice adds twice; calls commute.", "quantifier": "every matrix content, every mesh, all parameters", "why_tests_cant": "arbitrary contents and call sequences", "anchors": ["meshless/espim/plate2d_add_k0s.py::add_k0s"]}
{"id": "C37", "title": "add_k0s touches only transverse-shear degrees of freedom", "statement": "add_k0s changes only entries whose row and column are 5*i+2, 5*i+3 or 5*i+4 of nodes that are corners of a common triangle (cell methods) / of triangles at a common edge (edge method).", "quantifier": "every mesh, all methods", "why_tests_cant": "all meshes", "anchors": ["meshless/espim/plate2d_add_k0s_cell_based.py::add_k0s", "meshless/espim/plate2d_add_k0s_cell_based_no_smoothing.py::add_k0s", "meshless/espim/plate2d_add_k0s_edge_based.py::add_k0s"]}
{"id": "C38", "title": "Cell-based shear stiffness is the smoothed discrete-shear-gap energy", "statement": "For all v, u: the 'cell-based' increment satisfies v^T dK u = sum over triangles of Ac * gamma(v)^T diag(E44, E55) gamma(u), gamma the area average of the discrete shear gap strains of the three sub-triangles plus delta times the sum of the three corner rotations, where delta = 0.166666666666667 - 1/6 = 1/(3*10^15) is the rounding of the pasted literal; it is symmetric and positive semidefinite for non-negative E, correction factors and alpha.", "quantifier": "every mesh, every property assignment, all v, u", "why_tests_cant": "81 pasted formulas", "anchors": ["meshless/espim/plate2d_add_k0s_cell_based.py::add_k0s"]}
{"id": "C39", "title": "No-smoothing shear stiffness is the discrete-shear-gap energy", "statement": "The same for 'cell-based-no-smoothing' with the discrete shear gap strains of the whole triangle.", "quantifier": "every mesh, every property assignment, all v, u", "why_tests_cant": "81 pasted formulas", "anchors": ["meshless/espim/plate2d_add_k0s_cell_based_no_smoothing.py::add_k0s"]}
{"id": "C40", "title": "Uniform transverse translation is shear free", "statement": "dK @ d = 0 for d the uniform translation in z, for both cell methods.", "quantifier": "every planar mesh with non-degenerate triangles", "why_tests_cant": "exact cancellation on all meshes", "anchors": ["meshless/espim/plate2d_add_k0s_cell_based.py::add_k0s", "meshless/espim/plate2d_add_k0s_cell_based_no_smoothing.py::add_k0s"]}
{"id": "C41", "title": "Rigid rotation of the plate is shear free", "statement": "For w = c0 + p*x + q*y, phix = -p, phiy = -q at all nodes: dK @ d = 0 for the no-smoothing method; for the cell-based method the shear strain is exactly -(p, q)/10^15, i.e. zero up to the rounding of the pasted literal 0.166666666666667.", "quantifier": "every planar mesh with non-degenerate triangles, all c0, p, q", "why_tests_cant": "exact cancellation on all meshes", "anchors": ["meshless/espim/plate2d_add_k0s_cell_based.py::add_k0s", "meshless/espim/plate2d_add_k0s_cell_based_no_smoothing.py::add_k0s"]}
{"id": "C42", "title": "Constant-shear patch test", "statement": "For w = c0 + p*x + q*y with phix = r, phiy = s uniform, the shear strain of every triangle is exactly (p + r, q + s) for the no-smoothing method, and exactly (p + r, q + s) + (r, s)/10^15 for the cell-based method (the pasted literal 0.166666666666667).", "quantifier": "every planar mesh, all fields", "why_tests_cant": "all meshes", "anchors": ["meshless/espim/plate2d_add_k0s_cell_based.py::add_k0s", "meshless/espim/plate2d_add_k0s_cell_based_no_smoothing.py::add_k0s"]}
{"id": "C43", "title": "Corner order does not matter for the shear stiffness", "statement": "Reordering the three corners of any triangle leaves the add_k0s increment unchanged.", "quantifier": "every triangle and all six corner orders, every method", "why_tests_cant": "all geometries", "anchors": ["meshless/espim/plate2d_add_k0s_cell_based.py::add_k0s", "meshless/espim/plate2d_add_k0s_cell_based_no_smoothing.py::add_k0s"]}
{"id": "C44", "title": "Stabilisation factor", "statement": "The transverse shear moduli used are E * h^2/(h^2 + alpha*maxl^2): equal to E for alpha = 0, non-increasing in alpha, strictly between 0 and E for alpha > 0, and the two ways of writing it (1/(1+alpha*maxl^2/h^2) and h^2/(h^2+alpha*maxl^2)) agree.", "quantifier": "all alpha >= 0, h > 0, maxl >= 0", "why_tests_cant": "real-valued domain", "anchors": ["meshless/espim/plate2d_add_k0s_cell_based.py::add_k0s", "meshless/espim/plate2d_add_k0s_cell_based_no_smoothing.py::add_k0s", "meshless/espim/plate2d_add_k0s_edge_based.py::interior_edge", "meshless/espim/plate2d_add_k0s_edge_based.py::boundary_edge"]}
{"id": "C45", "title": "maxl is the longest side", "statement": "With maxl_from_area=False the cell methods use as maxl the length of the longest of the triangle's three sides; with True the square root of the triangle's area.", "quantifier": "every mesh read by the readers, every triangle", "why_tests_cant": "depends on tria.edges being right on every mesh", "anchors": ["meshless/espim/plate2d_add_k0s_cell_based.py::add_k0s", "meshless/espim/plate2d_add_k0s_cell_based_no_smoothing.py::add_k0s", "meshless/espim/read_mesh.py::read_delaunay"]}
{"id": "C46", "title": "Edge-based shear stiffness is translation invariant", "statement": "Translating the plate leaves the 'edge-based' increment unchanged.", "quantifier": "every mesh, every translation", "why_tests_cant": "all meshes", "anchors": ["meshless/espim/plate2d_add_k0s_edge_based.py::add_k0s", "meshless/espim/plate2d_add_k0s_edge_based.py::interior_edge"]}
{"id": "C47", "title": "Edge-based method treats boundary and interior edges alike", "statement": "With homogeneous properties boundary and interior edges use the same shear moduli (E44, E45, E55) for the same alpha and maxl.", "quantifier": "all laminates", "why_tests_cant": "all property values", "anchors": ["meshless/espim/plate2d_add_k0s_edge_based.py::boundary_edge", "meshless/espim/plate2d_add_k0s_edge_based.py::interior_edge"]}
{"id": "C48", "title": "Edge-based shear stiffness is symmetric", "statement": "The 'edge-based' increment is a symmetric matrix.", "quantifier": "every mesh and property assignment", "why_tests_cant": "225 pasted formulas with rounded decimal coefficients", "anchors": ["meshless/espim/plate2d_add_k0s_edge_based.py::add_k0s"]}
{"id": "C49", "title": "Analysis order", "statement": "On a freshly read mesh add_k0s and calc_kG raise (never return) when the mesh has a triangle; after a successful calc_k0 with the same flag, add_k0s with any of the three methods and calc_kG with a vector of length 5n succeed, whatever calls happened in between.", "quantifier": "every proper mesh, every sequence of calls", "why_tests_cant": "arbitrary histories", "anchors": ["meshless/espim/plate2d_calc_k0.py::calc_k0", "meshless/espim/plate2d_add_k0s.py::add_k0s", "meshless/espim/plate2d_calc_kG.py::calc_kG"]}
{"id": "C50", "title": "2-D Lagrange interpolation reproduces nodal values", "statement": "interpolate_lagrange_2D(x_nodes[m], y_nodes[n], x_nodes, y_nodes, field) = field[m, n].", "quantifier": "all M, N >= 1, pairwise distinct x_nodes and y_nodes, all fields, all m, n", "why_tests_cant": "all sizes and values", "anchors": ["meshless/interpolate.py::interpolate_lagrange_2D"]}
{"id": "C51", "title": "2-D Lagrange interpolation is exact for polynomials", "statement": "If field[m, n] = p(x_nodes[m], y_nodes[n]) for a polynomial p of degree < M in x and < N in y, the interpolated value is p(x, y) at every point; in particular constants are reproduced.", "quantifier": "all M, N >= 1, distinct nodes, all such polynomials, all points", "why_tests_cant": "infinite family", "anchors": ["meshless/interpolate.py::interpolate_lagrange_2D"]}
{"id": "C52", "title": "Interpolation is linear in the field", "statement": "interpolate(a*f + b*g) = a*interpolate(f) + b*interpolate(g) for 2D and 3D.", "quantifier": "all inputs", "why_tests_cant": "all inputs", "anchors": ["meshless/interpolate.py::interpolate_lagrange_2D", "meshless/interpolate.py::interpolate_lagrange_3D"]}
{"id": "C53", "title": "Control-node order does not matter", "statement": "Permuting x_nodes together with the rows of field (or y_nodes with the columns) leaves the 2-D interpolation unchanged.", "quantifier": "all permutations, sizes and values", "why_tests_cant": "all permutations", "anchors": ["meshless/interpolate.py::interpolate_lagrange_2D"]}
{"id": "C54", "title": "3-D Lagrange interpolation reproduces nodal values", "statement": "interpolate_lagrange_3D(x_nodes[m], y_nodes[n], z_nodes[p], ...) = field[m, n, p].", "quantifier": "all M, N, P >= 1, pairwise distinct nodes in each direction, all fields", "why_tests_cant": "all sizes and values", "anchors": ["meshless/interpolate.py::interpolate_lagrange_3D"]}
{"id": "C55", "title": "Shape mismatches are rejected", "statement": "interpolate_lagrange_2D/3D raise AssertionError exactly when the field's shape differs from (len(x_nodes), len(y_nodes)[, len(z_nodes)]).", "quantifier": "all shapes", "why_tests_cant": "all shapes", "anchors": ["meshless/interpolate.py::interpolate_lagrange_2D", "meshless/interpolate.py::interpolate_lagrange_3D"]}
{"id": "C56", "title": "Interpolation result has one value per query point", "statement": "For K query points the result is an array of K values, the k-th depending only on the k-th query point; arrays of query coordinates of different lengths, neither 1, raise ValueError.", "quantifier": "all K, M, N", "why_tests_cant": "all sizes", "anchors": ["meshless/interpolate.py::interpolate_lagrange_2D"]}
{"id": "C57", "title": "area_of_polygon is the shoelace area", "statement": "area_of_polygon(x, y) = |sum_i (x_i*y_{i+1} - x_{i+1}*y_i)|/2 (cyclic indices); it is unchanged by translation, by rotating the vertex list, by reversing it and by swapping x and y, and scales with the square of a scaling factor.", "quantifier": "all polygons with at least two vertices", "why_tests_cant": "all sizes and coordinates", "anchors": ["meshless/utils.py::area_of_polygon"]}
{"id": "C58", "title": "unitvec returns a unit vector", "statement": "unitvec(v) has norm 1 and is a positive multiple of v, for every v != 0.", "quantifier": "all non-zero vectors", "why_tests_cant": "all vectors", "anchors": ["meshless/utils.py::unitvec"]}
{"id": "C59", "title": "pow2mul leaves power-free text alone", "statement": "pow2mul(s) = s if s contains neither '**' nor 'pow('.", "quantifier": "all strings", "why_tests_cant": "all strings", "anchors": ["meshless/dev/sympytools.py::pow2mul"]}
{"id": "C60", "title": "pow2mul expands powers of names", "statement": "In a text of names, numbers, operators and spaces (no parentheses; no chained powers like a**2**3, no letter or digit right after an exponent), every name**n is replaced by '(' + n copies of the name joined by '*' + ')' and everything else is kept, even when one power is textually contained in another (b**2 inside ab**2 or b**25).", "quantifier": "all such strings, all n", "why_tests_cant": "all strings", "anchors": ["meshless/dev/sympytools.py::pow2mul"]}
{"id": "C61", "title": "pow2mul preserves the value of the expression", "statement": "The string returned by pow2mul denotes the same value as the input expression.", "quantifier": "all Python/C arithmetic expressions with integer powers as printed by sympy", "why_tests_cant": "all expressions", "anchors": ["meshless/dev/sympytools.py::pow2mul"]}
{"id": "C62", "title": "mprint_as_dense prints every non-zero entry once", "statement": "mprint_as_dense prints one assignment per non-zero entry of the matrix, in row-major order with the right indices (split as node and local dof when dofpernode is given), none for zeros, and the announced _num is their number.", "quantifier": "all matrices and dofpernode values", "why_tests_cant": "all shapes", "anchors": ["meshless/dev/sympytools.py::mprint_as_dense"]}
{"id": "C63", "title": "mprint_as_sparse symmetric output is the upper triangle", "statement": "With is_symmetric=True mprint_as_sparse prints exactly the non-zero entries with row <= column of the matrix, and _num is their number.", "quantifier": "all matrices, with and without dofpernode", "why_tests_cant": "all shapes", "anchors": ["meshless/dev/sympytools.py::mprint_as_sparse"]}
{"id": "C64", "title": "mprint_as_array expands powers correctly", "statement": "In mprint_as_array's output with pow_by_mul every name**n is replaced by the n-fold product of name and nothing else changes.", "quantifier": "all expressions", "why_tests_cant": "all strings", "anchors": ["meshless/dev/sympytools.py::mprint_as_array"]}
{"id": "C65", "title": "Logging helpers", "statement": "msg/warn/error return the (prefixed) text and print it, with level tabs in front, exactly when silent is False.", "quantifier": "all texts and levels", "why_tests_cant": "all texts", "anchors": ["meshless/logger.py::msg", "meshless/logger.py::warn", "meshless/logger.py::error"]}
{"id": "C66", "title": "k0 does not depend on the unit of length of the coordinates", "statement": "Multiplying all node coordinates by the same non-zero factor, with the laminate matrices kept, leaves calc_k0's matrix unchanged.", "quantifier": "every proper planar mesh, every non-zero factor (also negative), both flags", "why_tests_cant": "all meshes and factors", "anchors": ["meshless/espim/plate2d_calc_k0.py::calc_k0"]}
{"id": "C67", "title": "k0 does not depend on how nodes and elements are numbered", "statement": "If two meshes describe the same plate with other node ids, element ids, orders of nodes, elements and corners (and possibly a shifted origin and another unit of length), calc_k0 succeeds on both or on neither and the entry for (node i, dof r), (node j, dof s) is the same.", "quantifier": "every pair of meshes related by any renumbering, both flags", "why_tests_cant": "all renumberings of all meshes", "anchors": ["meshless/espim/plate2d_calc_k0.py::calc_k0", "meshless/espim/read_mesh.py::read_delaunay"]}
{"id": "C68", "title": "Constant pre-stress and constant slope", "statement": "If d is sampled from a displacement field linear in x and y and z has w = c + px*x + py*y at all nodes, then for homogeneous properties z^T calc_kG(d) z equals the plate area times Nxx*px^2 + 2*Nxy*px*py + Nyy*py^2 with the membrane forces N of the exact constant strains.", "quantifier": "every proper planar mesh after calc_k0, all linear fields, both flags", "why_tests_cant": "all meshes and fields", "anchors": ["meshless/espim/plate2d_calc_kG.py::calc_kG"]}
{"id": "C69", "title": "Edge-based shear stiffness is the energy of the smoothed shear gap strains", "statement": "After calc_k0, for all displacement vectors v, u the increment dK of add_k0s(method='edge-based') satisfies v^T dK u = sum over edges of A * gamma(v)^T E gamma(u), with A the area of the edge's domain, gamma the area average of the discrete shear gap strains of the sub-triangles between the edge and the centroids of its triangles, and E the averaged stabilised moduli; nothing outside the matrix changes.", "quantifier": "every proper planar mesh after calc_k0, all v, u, every alpha, both flags", "why_tests_cant": "144 and 225 pasted formulas with rounded decimal coefficients", "anchors": ["meshless/espim/plate2d_add_k0s_edge_based.py::add_k0s"]}
{"id": "C70", "title": "Cell-based shear stiffness is translation invariant", "statement": "Translating the plate by any vector before calc_k0 leaves the matrix (or error) of add_k0s with 'cell-based' and 'cell-based-no-smoothing' unchanged.", "quantifier": "every proper mesh, every translation, every starting matrix, every alpha and flag", "why_tests_cant": "all meshes and vectors", "anchors": ["meshless/espim/plate2d_add_k0s_cell_based.py::add_k0s", "meshless/espim/plate2d_add_k0s_cell_based_no_smoothing.py::add_k0s"]}
{"id": "C71", "title": "Rigid rotations have no edge-based shear strain", "statement": "A rigid rotation w = c + p*x + q*y, phix = -p, phiy = -q has, up to rounded literals, no transverse shear strain on any edge in the 'edge-based' method.", "quantifier": "every proper planar mesh after calc_k0, all c, p, q, every edge", "why_tests_cant": "all meshes and rotations", "anchors": ["meshless/espim/plate2d_add_k0s_edge_based.py::add_k0s"]}
{"id": "C72", "title": "mprint_as_array prints every non-zero entry at its flat position", "statement": "mprint_as_array prints one line per non-zero entry of the matrix with its position in the flattened matrix (rows first for order 'C', columns first for 'F'), in increasing order, none for zeros, and the announced _num is their number.", "quantifier": "all matrices, both orders", "why_tests_cant": "all shapes", "anchors": ["meshless/dev/sympytools.py::mprint_as_array"]}
{"id": "C73", "title": "Zero-energy modes of k0 are exactly the rigid motions", "statement": "For a mesh in one piece with positive definite laminate matrices [A B; B D], d^T calc_k0() d = 0 holds exactly when the in-plane displacements of all nodes are a rigid motion (u, v) = (a - c*y, b + c*x) and the rotations have the same form (phix, phiy) = (p - r*y, q + r*x); w is free. In particular k0 alone is singular: the transverse displacement and the twist of the normals have no stiffness until add_k0s is called.", "quantifier": "every proper planar connected mesh, every such property assignment, both flags, all d", "why_tests_cant": "all meshes: absence of hourglass modes cannot be sampled", "anchors": ["meshless/espim/plate2d_calc_k0.py::calc_k0"]}
{"id": "C74", "title": "Zero-energy modes of the complete stiffness matrix are the rigid motions", "statement": "For a mesh in one piece with at least two triangles, d^T (k0 + add_k0s(method='cell-based')) d = 0 holds exactly when (u, v) is a rigid in-plane motion, the rotations are uniform (p, q) and w = s - theta*(p*x + q*y), where theta = 1 + 10^-15 comes from the literal 0.166666666666667 (exactly 1 in exact thirds): no spurious modes.", "quantifier": "every proper planar connected mesh, every positive definite property assignment, every alpha >= 0, both flags, all d", "why_tests_cant": "all meshes", "anchors": ["meshless/espim/plate2d_calc_k0.py::calc_k0", "meshless/espim/plate2d_add_k0s_cell_based.py::add_k0s"]}
{"id": "C75", "title": "A supported plate is positive definite", "statement": "If the constrained degrees of freedom hold the plate (all five at two nodes at different places, or u, v, w, phix at two nodes with different y as in the project's cantilever tests), d^T (k0 + k0s) d > 0 for every non-zero d that vanishes at the supports, for both cell methods. For 'cell-based' and at least two triangles this holds exactly when the supports exclude every rigid motion.", "quantifier": "every proper planar connected mesh, every positive definite property assignment, every alpha >= 0, all supported d", "why_tests_cant": "all meshes and vectors", "anchors": ["meshless/espim/plate2d_calc_k0.py::calc_k0", "meshless/espim/plate2d_add_k0s_cell_based.py::add_k0s", "meshless/espim/plate2d_add_k0s_cell_based_no_smoothing.py::add_k0s"]}
{"id": "C76", "title": "The static problem of a supported plate has exactly one solution", "statement": "With such supports the reduced system K[free, free] u = F[free] solved in the tests has exactly one solution for every load vector. For 'cell-based' and at least two triangles it has one exactly when the supports exclude every rigid motion.", "quantifier": "every proper planar connected mesh, every load, both cell methods", "why_tests_cant": "all meshes and loads", "anchors": ["meshless/espim/plate2d_calc_k0.py::calc_k0", "meshless/espim/plate2d_add_k0s_cell_based.py::add_k0s", "meshless/espim/plate2d_add_k0s_cell_based_no_smoothing.py::add_k0s"]}
{"id": "C77", "title": "No spurious modes without smoothing", "statement": "For a mesh in one piece with at least two triangles the zero-energy displacements of k0 + add_k0s(method='cell-based-no-smoothing') are the rigid motions.", "quantifier": "every proper planar connected mesh", "why_tests_cant": "all meshes", "anchors": ["meshless/espim/plate2d_calc_k0.py::calc_k0", "meshless/espim/plate2d_add_k0s_cell_based_no_smoothing.py::add_k0s"]}
{"id": "C78", "title": "Reciprocity", "statement": "The complete stiffness matrix K (k0 plus either cell-based shear stiffness) is symmetric, and for two load cases with the same supports the work of the first loads on the second displacements equals the work of the second loads on the first displacements (Maxwell-Betti).", "quantifier": "every proper planar connected mesh with positive definite properties, every support set, all pairs of load cases", "why_tests_cant": "all meshes and loads", "anchors": ["meshless/espim/plate2d_calc_k0.py::calc_k0", "meshless/espim/plate2d_add_k0s_cell_based.py::add_k0s", "meshless/espim/plate2d_add_k0s_cell_based_no_smoothing.py::add_k0s"]}
{"id": "C79", "title": "Nodal forces are in equilibrium", "statement": "For every displacement vector d the nodal forces K @ d have no resultant in x, y and z and no resultant moment (about x and y with the factor 1 + 10^-15 of the rounded literal for 'cell-based'); so in a solved static problem the support reactions balance the applied loads.", "quantifier": "every proper planar connected mesh, all d, both cell methods", "why_tests_cant": "all meshes and displacements", "anchors": ["meshless/espim/plate2d_calc_k0.py::calc_k0", "meshless/espim/plate2d_add_k0s_cell_based.py::add_k0s", "meshless/espim/plate2d_add_k0s_cell_based_no_smoothing.py::add_k0s"]}
{"id": "C80", "title": "Larger alpha never makes the plate stiffer", "statement": "Raising alpha in add_k0s never raises the energy d^T K d of any displacement, and never lowers the work F^T d of the loads on the static solution; it never lowers the deflection at a single loaded degree of freedom.", "quantifier": "every proper planar connected mesh, all 0 <= alpha <= alpha', all supports and loads, both cell methods", "why_tests_cant": "all meshes, loads and alphas", "anchors": ["meshless/espim/plate2d_add_k0s_cell_based.py::add_k0s", "meshless/espim/plate2d_add_k0s_cell_based_no_smoothing.py::add_k0s"]}
{"id": "C81", "title": "Constant stress is in equilibrium at interior nodes", "statement": "With homogeneous properties and u, v, phix, phiy linear in x and y, the five nodal forces k0 @ d vanish at every node that is not on the boundary of the mesh.", "quantifier": "every proper planar mesh, all linear fields, every interior node", "why_tests_cant": "exact cancellation around every node of every mesh", "anchors": ["meshless/espim/plate2d_calc_k0.py::calc_k0"]}
{"id": "C82", "title": "Patch test", "statement": "A homogeneous connected plate whose boundary nodes are given the displacements of linear u and v combined with a transverse rigid motion, without load, has exactly one static solution: this field at all nodes.", "quantifier": "every proper planar connected mesh, all linear membrane fields, both cell methods, every alpha >= 0", "why_tests_cant": "all meshes", "anchors": ["meshless/espim/plate2d_calc_k0.py::calc_k0", "meshless/espim/plate2d_add_k0s_cell_based.py::add_k0s", "meshless/espim/plate2d_add_k0s_cell_based_no_smoothing.py::add_k0s"]}
{"id": "C83", "title": "Buckling factors are real", "statement": "For a supported plate that is stable without load, (K + c*kG) x = 0 at the free degrees of freedom has no solution x != 0 for any complex c that is not real; modes of different factors are orthogonal with respect to K and kG; every mode has a non-zero transverse displacement.", "quantifier": "every proper planar connected mesh, both cell methods, every pre-buckling displacement vector, every complex c and x", "why_tests_cant": "all meshes and pre-stress states", "anchors": ["meshless/espim/plate2d_calc_kG.py::calc_kG", "meshless/espim/plate2d_calc_k0.py::calc_k0", "meshless/espim/plate2d_add_k0s_cell_based.py::add_k0s", "meshless/espim/plate2d_add_k0s_cell_based_no_smoothing.py::add_k0s"]}
{"id": "C84", "title": "The buckling load does not depend on the size of the reference load", "statement": "Multiplying the reference load of the static analysis by s != 0 divides all buckling factors by s and keeps the modes, so the critical load c*F is the same.", "quantifier": "every stable supported plate, every load, every s != 0, both cell methods", "why_tests_cant": "all loads", "anchors": ["meshless/espim/plate2d_calc_kG.py::calc_kG", "meshless/espim/plate2d_calc_k0.py::calc_k0", "meshless/espim/plate2d_add_k0s_cell_based.py::add_k0s", "meshless/espim/plate2d_add_k0s_cell_based_no_smoothing.py::add_k0s"]}
{"id": "C85", "title": "No buckling under tension", "statement": "If the membrane forces of the pre-buckling state are nowhere compressive (the tensor [Nxx Nxy; Nxy Nyy] is positive semidefinite on every edge's domain), no buckling factor is positive or zero.", "quantifier": "every stable supported plate, every such state, both cell methods", "why_tests_cant": "all states", "anchors": ["meshless/espim/plate2d_calc_kG.py::calc_kG"]}
{"id": "C86", "title": "The first buckling factor is the limit of stability", "statement": "For t >= 0 the loaded plate K + t*kG is positive definite on the supported displacements exactly when t is below every positive buckling factor; a smallest positive factor exists whenever kG does negative work on some supported displacement z, and is at most z^T K z / -z^T kG z.", "quantifier": "every stable supported plate, every pre-buckling state, every t >= 0, both cell methods", "why_tests_cant": "all displacements", "anchors": ["meshless/espim/plate2d_calc_kG.py::calc_kG", "meshless/espim/plate2d_calc_k0.py::calc_k0", "meshless/espim/plate2d_add_k0s_cell_based.py::add_k0s", "meshless/espim/plate2d_add_k0s_cell_based_no_smoothing.py::add_k0s"]}
{"id": "C87", "title": "k0 is the same plate in turned axes", "statement": "Turning the plate in its plane by any angle, mirroring it, moving it and renumbering it changes calc_k0's matrix only by the change of axes: v'^T K' u' = v^T K u when v', u' are v, u with (u, v) and (phix, phiy) of every node in the new axes, the laminates being those of the turned axes. An isotropic plate keeps its laminates under every turn, a plate without direct-shear coupling under mirroring.", "quantifier": "every proper planar mesh, every angle, mirroring, translation and renumbering, all v, u, both flags", "why_tests_cant": "all meshes and angles", "anchors": ["meshless/espim/plate2d_calc_k0.py::calc_k0"]}
{"id": "C88", "title": "kG is the same plate in turned axes", "statement": "calc_kG does not depend on node ids, element ids, orders and origin; with coordinates in another unit of length it is divided by the scale; in turned or mirrored axes, with the pre-buckling displacements in the new axes and symmetric A and B, it is the same matrix in the new axes.", "quantifier": "every proper planar mesh after calc_k0, every angle, mirroring, translation, scale and renumbering, every displacement vector, both flags", "why_tests_cant": "all meshes, angles and displacement vectors", "anchors": ["meshless/espim/plate2d_calc_kG.py::calc_kG"]}
{"id": "C89", "title": "Cell-based shear stiffness is the same plate in turned axes", "statement": "The increment of add_k0s(method='cell-based') does not depend on node ids, element ids, orders and origin; if both transverse shear moduli are equal it is the same matrix in turned or mirrored axes.", "quantifier": "every planar mesh after calc_k0, every angle, mirroring, translation and renumbering, every alpha and maxl_from_area, both flags", "why_tests_cant": "all meshes and angles", "anchors": ["meshless/espim/plate2d_add_k0s_cell_based.py::add_k0s"]}
{"id": "C90", "title": "Every planar triangulation is a valid plate", "statement": "If the points lie in a plane z = const and the triangles have three corners not on a line and do not overlap (their interiors are disjoint), read_delaunay accepts the input, no edge has more than two triangles, the two triangles of an edge are on different sides, and calc_k0 returns a matrix whenever the properties it reads are set.", "quantifier": "every list of points and non-overlapping triangles, every script that does not move nodes, both flags", "why_tests_cant": "all triangulations", "anchors": ["meshless/espim/read_mesh.py::read_delaunay", "meshless/espim/plate2d_calc_k0.py::calc_k0"]}
{"id": "C91", "title": "From points and triangles to the static solution", "statement": "For a connected planar triangulation with positive definite laminates given to all nodes (or all triangles), the script read_delaunay, assignment of properties, calc_k0, add_k0s with a cell method runs without error, and with two different points clamped (the degrees of freedom of point i being 5*i ... 5*i+4) the static problem has exactly one solution for every load.", "quantifier": "every connected list of points and non-overlapping triangles, every assignment of laminates, every load, alpha >= 0, both flags and cell methods", "why_tests_cant": "all triangulations and loads", "anchors": ["meshless/espim/read_mesh.py::read_delaunay", "meshless/espim/plate2d_calc_k0.py::calc_k0", "meshless/espim/plate2d_add_k0s_cell_based.py::add_k0s", "meshless/espim/plate2d_add_k0s_cell_based_no_smoothing.py::add_k0s"]}
{"id": "C92", "title": "Static analysis is the same in turned axes", "statement": "Describing a plate in turned, mirrored or shifted axes and with other node and element numbers does not change its static answer: with the supports and loads in the new axes, d solves the static problem of calc_k0 + add_k0s('cell-based') exactly when d with (u, v) and (phix, phiy) in the new axes solves that of the new description.", "quantifier": "every proper planar mesh of given thickness, every angle for equal transverse shear moduli and every reversal of axes otherwise, every renumbering, supports, loads, alpha, both flags", "why_tests_cant": "all meshes, angles and loads", "anchors": ["meshless/espim/plate2d_calc_k0.py::calc_k0", "meshless/espim/plate2d_add_k0s_cell_based.py::add_k0s"]}
{"id": "C93", "title": "Symmetric plates have symmetric solutions", "statement": "If a turn or mirroring with a renumbering of nodes takes the plate, its laminates, supports and loads to themselves, the static solution is taken to itself too; so half or quarter models with symmetry supports are justified, although the triangles' orientation, order and corner order are not symmetric.", "quantifier": "every proper planar mesh with such a symmetry, 'cell-based', stable supports, every symmetric load, both flags", "why_tests_cant": "all symmetric meshes", "anchors": ["meshless/espim/plate2d_calc_k0.py::calc_k0", "meshless/espim/plate2d_add_k0s_cell_based.py::add_k0s"]}
{"id": "C94", "title": "Buckling analysis is the same in turned axes", "statement": "For a plate described in turned, mirrored, shifted or renumbered form the whole chain static solution, calc_kG, buckling problem gives the same buckling factors, and the modes are the same modes in the new axes.", "quantifier": "every proper planar mesh with symmetric A and B matrices, 'cell-based', every such change of description, supports, loads, both flags", "why_tests_cant": "all meshes, angles and loads", "anchors": ["meshless/espim/plate2d_calc_kG.py::calc_kG", "meshless/espim/plate2d_calc_k0.py::calc_k0", "meshless/espim/plate2d_add_k0s_cell_based.py::add_k0s"]}
{"id": "C95", "title": "Number of buckling factors", "statement": "The buckling problem of a stable supported plate has finitely many factors, at most as many as there are unsupported transverse displacements w; so an eigenvalue solver asked for more returns only spurious ones.", "quantifier": "every proper planar connected mesh, both cell methods, every pre-buckling displacement vector, both flags", "why_tests_cant": "all meshes and states", "anchors": ["meshless/espim/plate2d_calc_kG.py::calc_kG", "meshless/espim/plate2d_calc_k0.py::calc_k0", "meshless/espim/plate2d_add_k0s_cell_based.py::add_k0s", "meshless/espim/plate2d_add_k0s_cell_based_no_smoothing.py::add_k0s"]}
{"id": "C96", "title": "More supports never soften the plate", "statement": "Supporting more degrees of freedom never increases the work of the loads, in particular not the deflection under a single unit load, and for a given pre-stress never lowers the first positive buckling factor.", "quantifier": "every proper planar connected mesh, both cell methods, alpha >= 0, all supports and loads, both flags", "why_tests_cant": "all meshes, loads and supports", "anchors": ["meshless/espim/plate2d_calc_k0.py::calc_k0", "meshless/espim/plate2d_add_k0s_cell_based.py::add_k0s", "meshless/espim/plate2d_add_k0s_cell_based_no_smoothing.py::add_k0s", "meshless/espim/plate2d_calc_kG.py::calc_kG"]}
{"id": "C97", "title": "Stiffer laminates never soften the plate", "statement": "Replacing laminates by ones at least as stiff (ABD energy, thickness, transverse shear moduli and correction factors) never lowers the energy of a displacement and never increases the work of given loads, also with the thickness dependent stabilisation alpha and with properties averaged over nodes.", "quantifier": "every proper planar connected mesh, every such pair of property assignments, both cell methods, alpha >= 0, both flags", "why_tests_cant": "all assignments", "anchors": ["meshless/espim/plate2d_calc_k0.py::calc_k0", "meshless/espim/plate2d_add_k0s_cell_based.py::add_k0s", "meshless/espim/plate2d_add_k0s_cell_based_no_smoothing.py::add_k0s"]}
{"id": "C98", "title": "Load cases superpose", "statement": "The static solution for a*f + b*g is a times the solution for f plus b times the solution for g, and calc_kG of it is the same combination of the two geometric stiffness matrices.", "quantifier": "every stable supported plate, all loads f, g and factors a, b, both cell methods, both flags", "why_tests_cant": "all loads", "anchors": ["meshless/espim/plate2d_calc_k0.py::calc_k0", "meshless/espim/plate2d_add_k0s_cell_based.py::add_k0s", "meshless/espim/plate2d_add_k0s_cell_based_no_smoothing.py::add_k0s", "meshless/espim/plate2d_calc_kG.py::calc_kG"]}
{"id": "C99", "title": "Printing collected expressions", "statement": "With collect_for each printer prints every non-zero entry (for is_symmetric those that C63 describes) once and in order: its place with '+=', then for each collected symbol a comment line and a line with the term; the _num line counts the printed entries. pow_by_mul and op have no effect in this case.", "quantifier": "every matrix, every result of sympy's collect, all other options", "why_tests_cant": "all matrices and options", "anchors": ["meshless/dev/sympytools.py::mprint_as_sparse", "meshless/dev/sympytools.py::mprint_as_dense", "meshless/dev/sympytools.py::mprint_as_array"]}
{"id": "C100", "title": "The written file holds the returned text", "statement": "When a printer returns, with print_file it has written exactly one file, print_<name>[_<sufix>].txt, whose content is the returned string; with print_file=False none; if it raises, none.", "quantifier": "every matrix and all options", "why_tests_cant": "all matrices and options", "anchors": ["meshless/dev/sympytools.py::mprint_as_sparse", "meshless/dev/sympytools.py::mprint_as_dense", "meshless/dev/sympytools.py::mprint_as_array"]}
{"id": "C101", "title": "Listed substitutions", "statement": "With subs, mprint_as_sparse and mprint_as_dense put in front of the text a list of exactly those substitutions whose new expression's text occurs in it, each once and sorted by that text, and nothing if there are none.", "quantifier": "every matrix, every dictionary, all other options", "why_tests_cant": "all dictionaries", "anchors": ["meshless/dev/sympytools.py::mprint_as_sparse", "meshless/dev/sympytools.py::mprint_as_dense"]}
{"id": "C102", "title": "Declarations of common subexpressions", "statement": "With use_cse, mprint_as_array declares every symbol of sympy.cse exactly once, in order and at most nine per line, then assigns each in the same order, and then prints the reduced matrix as it would without use_cse.", "quantifier": "every matrix, every number of substitutions, all other options", "why_tests_cant": "any number of substitutions", "anchors": ["meshless/dev/sympytools.py::mprint_as_array"]}
{"id": "C103", "title": "Printing does not change the matrix", "statement": "After mprint_as_array the matrix passed to it is the same as before.", "quantifier": "every matrix and all options", "why_tests_cant": "in-place assignment depends on sympy.cse's result", "anchors": ["meshless/dev/sympytools.py::mprint_as_array"]}
{"id": "C104", "title": "The operator op is used for every entry", "statement": "Every entry printed by mprint_as_array is assigned with the operator op.", "quantifier": "every matrix, every op, all options", "why_tests_cant": "all options", "anchors": ["meshless/dev/sympytools.py::mprint_as_array"]}
{"id": "C105", "title": "Outcomes do not depend on rounding", "statement": "Whatever rounding the floating-point arithmetic uses, a script of assignments and analysis calls ends with the same nodes, triangles, edges, properties and node indices as in exact arithmetic; each call of calc_k0, calc_kG and add_k0s raises the same exception or succeeds alike, and returns a matrix of the same size.", "quantifier": "every mesh, every script, every rounding rule, all arguments", "why_tests_cant": "tests run with one rounding and a few meshes", "anchors": ["meshless/espim/plate2d_calc_k0.py::calc_k0", "meshless/espim/plate2d_calc_kG.py::calc_kG", "meshless/espim/plate2d_add_k0s_cell_based.py::add_k0s", "meshless/espim/plate2d_add_k0s_cell_based_no_smoothing.py::add_k0s", "meshless/espim/plate2d_add_k0s_edge_based.py::add_k0s"]}
{"id": "C106", "title": "Rounding error of k0", "statement": "On a proper planar mesh with properties, the entries of the matrix calc_k0 computes in floating-point arithmetic differ from the exact ones by at most a constant (depending on the mesh) times the unit roundoff, for all rounding rules of small enough roundoff - also where centroids, normals and orientation tests are computed with rounding, and after any script computed with rounding.", "quantifier": "every proper planar mesh reached by any script, every rounding rule of small roundoff, both flags", "why_tests_cant": "all meshes and roundings", "anchors": ["meshless/espim/plate2d_calc_k0.py::calc_k0"]}
{"id": "C107", "title": "Rounding error of kG", "statement": "The geometric stiffness matrix computed in floating-point arithmetic for a displacement vector known up to roundoff differs from the exact one by at most a constant times the unit roundoff.", "quantifier": "every proper planar mesh after calc_k0, every displacement vector, every rounding rule of small roundoff, both flags", "why_tests_cant": "all meshes, vectors and roundings", "anchors": ["meshless/espim/plate2d_calc_kG.py::calc_kG"]}
{"id": "C108", "title": "Rounding error of the shear stiffness", "statement": "add_k0s in floating-point arithmetic, applied to a matrix known up to roundoff, gives the exact result up to a constant times the unit roundoff, for all three methods; so does calc_k0 followed by add_k0s.", "quantifier": "every proper planar mesh after calc_k0 with non-zero thicknesses, every alpha >= 0, both values of maxl_from_area, every rounding rule of small roundoff, both flags", "why_tests_cant": "all meshes and roundings", "anchors": ["meshless/espim/plate2d_add_k0s_cell_based.py::add_k0s", "meshless/espim/plate2d_add_k0s_cell_based_no_smoothing.py::add_k0s", "meshless/espim/plate2d_add_k0s_edge_based.py::add_k0s"]}
{"id": "C109", "title": "Rounding error of the static solution", "statement": "For a stable supported plate the stiffness matrix computed in floating-point arithmetic gives a static problem with exactly one solution, and every vector that solves it up to a residual of the size of the roundoff (what a backward stable solver returns), for loads known up to roundoff, differs from the exact solution of the exact problem by at most a constant times the unit roundoff.", "quantifier": "every stable supported plate, every load, every such computed solution, every rounding rule of small roundoff, all three methods, both flags", "why_tests_cant": "all plates, loads, solvers and roundings", "anchors": ["meshless/espim/plate2d_calc_k0.py::calc_k0", "meshless/espim/plate2d_add_k0s_cell_based.py::add_k0s", "meshless/espim/plate2d_add_k0s_cell_based_no_smoothing.py::add_k0s", "meshless/espim/plate2d_add_k0s_edge_based.py::add_k0s"]}
{"id": "C110", "title": "Rounding error of the pre-stress", "statement": "In the chain calc_k0, add_k0s, static solution, calc_kG computed in floating-point arithmetic the geometric stiffness matrix differs from the exact one by at most a constant times the unit roundoff.", "quantifier": "every stable supported plate, every load, every computed solution of small residual, every rounding rule of small roundoff, all three methods, both flags", "why_tests_cant": "all plates, loads, solvers and roundings", "anchors": ["meshless/espim/plate2d_calc_k0.py::calc_k0", "meshless/espim/plate2d_calc_kG.py::calc_kG", "meshless/espim/plate2d_add_k0s_cell_based.py::add_k0s", "meshless/espim/plate2d_add_k0s_cell_based_no_smoothing.py::add_k0s", "meshless/espim/plate2d_add_k0s_edge_based.py::add_k0s"]}
{"id": "C111", "title": "The buckling modes are complete", "statement": "For a stable supported plate and the geometric stiffness matrix of any displacement state there are finitely many buckling modes, orthonormal in the energy of the plate, such that every displacement compatible with the supports is a combination of them plus a part on which kG does nothing; every buckling factor is one of theirs, every mode is a combination of those with the same factor, and there are at most as many as free transverse displacements (asking an eigenvalue solver for more cannot succeed).", "quantifier": "every stable supported plate (cell methods), every displacement vector, both flags", "why_tests_cant": "all plates and states", "anchors": ["meshless/espim/plate2d_calc_k0.py::calc_k0", "meshless/espim/plate2d_calc_kG.py::calc_kG", "meshless/espim/plate2d_add_k0s_cell_based.py::add_k0s", "meshless/espim/plate2d_add_k0s_cell_based_no_smoothing.py::add_k0s"]}
{"id": "C112", "title": "Counting buckling factors", "statement": "The number of buckling factors between 0 and a load level t, counted with multiplicity, is the largest dimension of a space of supported displacements on which K + t*KG is negative definite - so the number of negative pivots of a factorisation at t tells whether an eigenvalue solver has missed a factor.", "quantifier": "every stable supported plate (cell methods), every displacement vector, every t > 0, both flags", "why_tests_cant": "all plates, states and load levels", "anchors": ["meshless/espim/plate2d_calc_k0.py::calc_k0", "meshless/espim/plate2d_calc_kG.py::calc_kG", "meshless/espim/plate2d_add_k0s_cell_based.py::add_k0s", "meshless/espim/plate2d_add_k0s_cell_based_no_smoothing.py::add_k0s"]}
{"id": "C113", "title": "Rounding error of buckling factors and modes", "statement": "In a buckling analysis computed in floating-point arithmetic (calc_k0, add_k0s, static solution, calc_kG, eigenvalue solver) every factor of bounded size - also a complex one - and its mode that satisfy the computed equations up to a residual of the size of the roundoff are within a constant times the unit roundoff of an exact factor, which is real, and of an exact mode of that factor; conversely every exact factor and mode satisfies the computed equations up to such a residual. The analysis can always be carried out.", "quantifier": "every stable supported plate (cell methods), every load, every such computed result, every rounding rule of small roundoff, both flags", "why_tests_cant": "all plates, loads, solvers and roundings", "anchors": ["meshless/espim/plate2d_calc_k0.py::calc_k0", "meshless/espim/plate2d_calc_kG.py::calc_kG", "meshless/espim/plate2d_add_k0s_cell_based.py::add_k0s", "meshless/espim/plate2d_add_k0s_cell_based_no_smoothing.py::add_k0s"]}
{"id": "C114", "title": "Rounding error of the limit of stability", "statement": "With the first positive buckling factor c1 of the exact analysis: for load levels t >= 0 below c1 by more than a constant times the unit roundoff the computed K + t*KG is positive definite on the supported displacements; above c1 by more than that, up to any load level fixed beforehand, it is not (the constant depends on that level).", "quantifier": "every stable supported plate (cell methods) that buckles, every load, every computed analysis, every rounding rule of small roundoff, both flags", "why_tests_cant": "all plates, loads and roundings", "anchors": ["meshless/espim/plate2d_calc_k0.py::calc_k0", "meshless/espim/plate2d_calc_kG.py::calc_kG", "meshless/espim/plate2d_add_k0s_cell_based.py::add_k0s", "meshless/espim/plate2d_add_k0s_cell_based_no_smoothing.py::add_k0s"]}
{"id": "C115", "title": "Displacement vectors of the wrong length", "statement": "calc_kG raises IndexError or ValueError when the displacement vector ends before the five degrees of freedom of some corner of a triangle; numbers beyond the degrees of freedom of the mesh do not change any entry and only enlarge the matrix by zero rows and columns, five for each five numbers.", "quantifier": "every proper mesh with properties after calc_k0, every vector of any length, both flags", "why_tests_cant": "all meshes and lengths", "anchors": ["meshless/espim/plate2d_calc_kG.py::calc_kG"]}
{"id": "C116", "title": "Matrices of the wrong size", "statement": "add_k0s raises IndexError when the matrix lacks a degree of freedom of some corner of a triangle, whatever the method; in a matrix larger than the mesh needs it makes exactly the increments, with the same outcome, as in one of the right size.", "quantifier": "every proper mesh with properties after calc_k0, every matrix, all three methods, every alpha and maxl_from_area, both flags", "why_tests_cant": "all meshes and sizes", "anchors": ["meshless/espim/plate2d_add_k0s_cell_based.py::add_k0s", "meshless/espim/plate2d_add_k0s_cell_based_no_smoothing.py::add_k0s", "meshless/espim/plate2d_add_k0s_edge_based.py::add_k0s"]}
{"id": "C117", "title": "Smoothing is never stiffer than constant strain triangles", "statement": "For a uniform laminate the membrane and bending energy of any displacement in calc_k0's matrix equals the energy with ordinary constant strain triangles on the same mesh minus the energy of the jumps of the strain at the interior edges; so it is never larger, and for a positive definite laminate equal exactly when the strain has no jump at any interior edge. With different laminates the comparison can fail.", "quantifier": "every proper planar mesh of one laminate with positive semidefinite ABD, every displacement, both flags", "why_tests_cant": "all meshes and displacements", "anchors": ["meshless/espim/plate2d_calc_k0.py::calc_k0"]}
{"id": "C118", "title": "Deflections and buckling factors against constant strain triangles", "statement": "With a uniform laminate, replacing calc_k0's matrix by that of the constant strain triangles (transverse shear part unchanged) never increases the work of the loads on the plate - so single loads deflect it at least as much with the smoothed matrix - and for a given pre-stress never lowers the first positive buckling factor.", "quantifier": "every connected proper planar mesh of one positive definite laminate, both cell methods, alpha >= 0, all supports, loads and pre-buckling displacement vectors, both flags", "why_tests_cant": "all meshes, supports and loads", "anchors": ["meshless/espim/plate2d_calc_k0.py::calc_k0", "meshless/espim/plate2d_add_k0s_cell_based.py::add_k0s", "meshless/espim/plate2d_add_k0s_cell_based_no_smoothing.py::add_k0s", "meshless/espim/plate2d_calc_kG.py::calc_kG"]}
{"id": "C119", "title": "Consistency of k0", "statement": "For the nodal values of smooth displacement fields on a plate of smoothly varying laminates the energy of calc_k0's matrix is the membrane and bending energy of the plate theory, the integral of the strains of the fields with the laminate matrix, up to an explicit error proportional to the longest side of the triangles; for fields with constant derivatives and a uniform laminate there is no error on any mesh.", "quantifier": "every proper planar mesh, all pairs of fields with Lipschitz derivatives, all Lipschitz laminates, properties from nodes or elements", "why_tests_cant": "integrals over all smooth fields and meshes", "anchors": ["meshless/espim/plate2d_calc_k0.py::calc_k0"]}
{"id": "C120", "title": "Consistency of the shear stiffness", "statement": "What add_k0s adds for the nodal values of smooth fields is the transverse shear energy of the plate theory up to an explicit error proportional to the longest side: with the discrete shear gap without smoothing, and - up to a further relative effect below 1e-14 of the truncated decimal 0.166666666666667 - with the cell-based smoothing. The stabilisation alpha contributes an error of the order of the square of the side over the thickness.", "quantifier": "every planar mesh after calc_k0, all pairs of smooth fields, all Lipschitz laminates of positive thickness, alpha >= 0, both values of maxl_from_area, both flags", "why_tests_cant": "integrals over all smooth fields and meshes", "anchors": ["meshless/espim/plate2d_add_k0s_cell_based.py::add_k0s", "meshless/espim/plate2d_add_k0s_cell_based_no_smoothing.py::add_k0s"]}
{"id": "C121", "title": "Consistency of kG", "statement": "For a pre-buckling displacement vector and displacements that are nodal values of smooth fields the energy of calc_kG's matrix is the work of the membrane forces of the pre-buckling field on the slopes of w, up to an explicit error proportional to the longest side.", "quantifier": "every proper planar mesh after calc_k0, all smooth fields, all Lipschitz laminates, both flags", "why_tests_cant": "integrals over all smooth fields and meshes", "anchors": ["meshless/espim/plate2d_calc_kG.py::calc_kG"]}
{"id": "C122", "title": "Energies converge under refinement", "statement": "For meshes of one plate whose longest side tends to zero and whose triangles do not become flat, the energies of calc_k0, of calc_k0 + add_k0s('cell-based-no-smoothing') and of calc_kG for nodal values of smooth fields tend to those of the first-order shear deformation theory on the plate, whatever alpha >= 0; with 'cell-based' they end up within 1e-14 times a constant of it.", "quantifier": "every sequence of such meshes filling one region, all smooth fields and laminates, both flags", "why_tests_cant": "limits over sequences of meshes", "anchors": ["meshless/espim/plate2d_calc_k0.py::calc_k0", "meshless/espim/plate2d_add_k0s_cell_based.py::add_k0s", "meshless/espim/plate2d_add_k0s_cell_based_no_smoothing.py::add_k0s", "meshless/espim/plate2d_calc_kG.py::calc_kG"]}
{"id": "C123", "title": "Refined meshes are not too stiff", "statement": "Refining the mesh, the work of the loads in the static analysis is in the limit at least 2*W - E for every smooth field compatible with the supports, where W is the limit of the work of the loads on its nodal values and E its strain energy in the plate theory; so the computed compliance does not stay below that of the plate theory (no locking in the limit). With 'cell-based' this holds up to 1e-14 times a constant, from its truncated decimal.", "quantifier": "every sequence of refined meshes of one connected plate, both cell methods, alpha >= 0, all supports, loads and admissible smooth fields, both flags", "why_tests_cant": "limits over sequences of meshes", "anchors": ["meshless/espim/plate2d_calc_k0.py::calc_k0", "meshless/espim/plate2d_add_k0s_cell_based.py::add_k0s", "meshless/espim/plate2d_add_k0s_cell_based_no_smoothing.py::add_k0s"]}
{"id": "C124", "title": "Refined meshes do not overestimate the buckling load", "statement": "Refining the mesh, for a smooth pre-buckling state and every smooth field compatible with the supports on whose slopes the membrane forces do negative work, fine meshes have a first positive buckling factor, and in the limit it is at most the quotient of the energies of that field in the plate theory.", "quantifier": "every sequence of refined meshes of one connected plate with stable supports, method 'cell-based-no-smoothing', alpha >= 0, all smooth pre-buckling and test fields, both flags", "why_tests_cant": "limits over sequences of meshes", "anchors": ["meshless/espim/plate2d_calc_k0.py::calc_k0", "meshless/espim/plate2d_add_k0s_cell_based_no_smoothing.py::add_k0s", "meshless/espim/plate2d_calc_kG.py::calc_kG"]}
{"id": "C125", "title": "Units do not matter in static analysis", "statement": "Giving coordinates, thicknesses and laminate matrices in another consistent system of units (lengths times a, forces times f: A and E times f/a, B times f, D times f*a) gives the matrices of calc_k0 and of calc_k0 + add_k0s whose entries are the converted ones, and the static solution in the new units is the converted solution. No constant of the code carries a unit; only the step from shear modulus to stiffness with alpha depends on the ratio of thickness and side.", "quantifier": "every proper planar mesh of given thickness, both cell methods, every alpha and maxl_from_area, all supports, loads and factors a, f > 0, both flags", "why_tests_cant": "all meshes and units", "anchors": ["meshless/espim/plate2d_calc_k0.py::calc_k0", "meshless/espim/plate2d_add_k0s_cell_based.py::add_k0s", "meshless/espim/plate2d_add_k0s_cell_based_no_smoothing.py::add_k0s"]}
{"id": "C126", "title": "Units do not matter in buckling analysis", "statement": "With the pre-buckling displacements converted, buckling factors are the same numbers in every consistent system of units and the modes are the converted modes.", "quantifier": "every proper planar mesh of given thickness, both cell methods, all supports, displacement vectors and factors a, f > 0, both flags", "why_tests_cant": "all meshes and units", "anchors": ["meshless/espim/plate2d_calc_kG.py::calc_kG", "meshless/espim/plate2d_calc_k0.py::calc_k0", "meshless/espim/plate2d_add_k0s_cell_based.py::add_k0s", "meshless/espim/plate2d_add_k0s_cell_based_no_smoothing.py::add_k0s"]}
{"id": "C127", "title": "No shear locking with alpha > 0", "statement": "Making all plies thinner by a factor t <= 1 on a fixed mesh and reducing transverse loads and moments by t^3 and in-plane loads by t^2, which keeps the deflections of thin plate theory, the work of the loads divided by t^3 stays between 1/(1+c) and 1 times that of the original plate, where c bounds h^2/(alpha*l^2) over the triangles of the original plate: however thin the plate, the deflection under a single load does not collapse.", "quantifier": "every connected proper planar mesh of positive definite laminates, both cell methods, every alpha > 0, both values of maxl_from_area, every t in (0, 1], all supports and loads, both flags", "why_tests_cant": "the limit of vanishing thickness on all meshes", "anchors": ["meshless/espim/plate2d_add_k0s_cell_based.py::add_k0s", "meshless/espim/plate2d_add_k0s_cell_based_no_smoothing.py::add_k0s", "meshless/espim/plate2d_calc_k0.py::calc_k0"]}
{"id": "C128", "title": "Shear locking with alpha = 0", "statement": "Without stabilisation (alpha = 0) the strain energy of a plate made thinner by a factor t splits exactly into t^3 times the energy of calc_k0's matrix plus t times what add_k0s adds; so when the supports together with vanishing discrete shear strains allow no displacement, the work of the loads reduced as for thin plates is at most C*t^2*t^3 times that of the original plate with a constant C of the mesh: the deflections of thin plates lock.", "quantifier": "every connected proper planar mesh of positive definite laminates, both cell methods, both values of maxl_from_area, every t > 0, all supports that exclude displacements free of shear, all loads, both flags", "why_tests_cant": "the limit of vanishing thickness on all meshes", "anchors": ["meshless/espim/plate2d_add_k0s_cell_based.py::add_k0s", "meshless/espim/plate2d_add_k0s_cell_based_no_smoothing.py::add_k0s", "meshless/espim/plate2d_calc_k0.py::calc_k0"]}
{"id": "C129", "title": "Buckling of thin plates", "statement": "With alpha > 0, making all plies thinner by a factor t <= 1 keeps a stable supported plate stable, and with the pre-buckling displacements of the thin plate (in-plane ones times t) its first positive buckling factor lies between t and (1+c)*t times that of the original plate, so that the critical membrane forces go down like t^3, as in thin plate theory.", "quantifier": "every connected proper planar mesh of positive definite laminates, both cell methods, every alpha > 0, every t in (0, 1], all stable supports and pre-buckling displacements, both flags", "why_tests_cant": "the limit of vanishing thickness, all eigenvalue problems", "anchors": ["meshless/espim/plate2d_add_k0s_cell_based.py::add_k0s", "meshless/espim/plate2d_add_k0s_cell_based_no_smoothing.py::add_k0s", "meshless/espim/plate2d_calc_kG.py::calc_kG"]}
{"id": "C130", "title": "Nodes moved after calc_k0", "statement": "When nodes are moved after calc_k0, add_k0s with the cell methods works with the new positions, as if the nodes had been moved before. calc_kG still works with the areas, gradients and strains from before the move: with prop_from_node its result does not change at all; with element properties the laminates at an edge of two triangles are averaged with the areas of the triangles after the move divided by their total before it, so that even for a uniform laminate the membrane forces there change with the ratio of the areas.", "quantifier": "every proper planar mesh after calc_k0, every list of moves, all displacement vectors; both cell methods, all options", "why_tests_cant": "all meshes and all moves; the two kinds of geometry agree whenever calc_k0 is repeated", "anchors": ["meshless/espim/plate2d_calc_kG.py::calc_kG", "meshless/espim/plate2d_add_k0s_cell_based.py::add_k0s", "meshless/espim/plate2d_add_k0s_cell_based_no_smoothing.py::add_k0s", "meshless/espim/plate2d_calc_k0.py::calc_k0"]}
{"id": "C131", "title": "Smoothing softens by a bounded factor", "statement": "Edge-based smoothing makes the plate softer than constant strain triangles, but only by a bounded factor: the strains of the linear interpolation are bounded by the energy of calc_k0, the energy of the constant strain triangles is at most 81 s^4 C/c times that of calc_k0, and under the same loads and supports the work of the loads is at most this factor larger. Here s bounds (longest side)^2/area and c, C bound the laminate matrices; the size and number of the triangles do not enter.", "quantifier": "every proper planar mesh, all laminates, all displacements, loads and supports; both flags", "why_tests_cant": "all meshes, in particular arbitrarily fine ones", "anchors": ["meshless/espim/plate2d_calc_k0.py::calc_k0"]}
{"id": "C132", "title": "Static solutions converge", "statement": "When the loads on a plate clamped along its boundary are in balance with a smooth displacement field of the plate theory, the displacements computed with calc_k0 + add_k0s (both cell methods) differ from the values of the field at the nodes by an energy of at most C*h^2, where h is the longest side of the triangles; the strains and curvatures of the computed displacements, integrated over the plate, and the displacements weighted with the areas are off by squares of at most C*h^2 too. C depends on bounds for the field, the laminates, the shape of the triangles, the size of the plate and alpha, not on the mesh. (With 'cell-based' h is replaced by h plus the error of the literal 0.166666666666667.) Refining the mesh, displacements, strains, strain energy and the work of the loads tend, with 'cell-based-no-smoothing', to those of the plate theory.", "quantifier": "every proper planar mesh of smoothly varying positive definite laminates, every smooth field compatible with the supports, both cell methods, alpha >= 0, both values of maxl_from_area, both flags; every field has loads in balance with it", "why_tests_cant": "limits over all sequences of refined meshes, all fields", "anchors": ["meshless/espim/plate2d_calc_k0.py::calc_k0", "meshless/espim/plate2d_add_k0s_cell_based.py::add_k0s", "meshless/espim/plate2d_add_k0s_cell_based_no_smoothing.py::add_k0s"]}
{"id": "C133", "title": "Missing properties in add_k0s and calc_kG", "statement": "When after calc_k0 a property needed with the given flag is missing (removed, or add_k0s/calc_kG called with the other flag), calc_kG raises AttributeError and add_k0s, with any method, raises AttributeError too - but unlike calc_k0, which changes nothing, it leaves in the given matrix what it has added before: exactly the parts of the triangles (edges with 'edge-based') that come before the first one of missing properties. On a mesh with an edge of more than two triangles neither add_k0s('edge-based') nor calc_kG ever returns.", "quantifier": "every proper mesh after calc_k0, every pattern of missing properties, all three methods, every matrix and displacement vector of the right size, both flags; every mesh with such an edge in any state", "why_tests_cant": "all meshes and patterns", "anchors": ["meshless/espim/plate2d_add_k0s_cell_based.py::add_k0s", "meshless/espim/plate2d_add_k0s_cell_based_no_smoothing.py::add_k0s", "meshless/espim/plate2d_add_k0s_edge_based.py::add_k0s", "meshless/espim/plate2d_calc_kG.py::calc_kG"]}
{"id": "C134", "title": "Buckling analysis with the computed pre-buckling state", "statement": "In the complete buckling analysis (calc_k0, add_k0s, static solution for the reference load, calc_kG with the displacements just computed) the geometric stiffness on the nodal values of smooth fields differs from the work of the membrane forces of the exact pre-buckling solution by at most C*h, where h is the longest side of the triangles and C does not depend on the mesh (with 'cell-based' h plus the error of the literal 0.166666666666667). Refining the mesh with 'cell-based-no-smoothing' it tends to that work, and the first positive buckling factor is in the limit at most the quotient of the energies in the plate theory of every smooth field compatible with the supports on whose slopes the membrane forces do negative work.", "quantifier": "every proper planar mesh of smoothly varying positive definite laminates, every smooth pre-buckling solution with supports that control the rotations, all smooth test fields, alpha >= 0, both flags; every sequence of refined meshes", "why_tests_cant": "limits over sequences of meshes, two coupled analyses", "anchors": ["meshless/espim/plate2d_calc_kG.py::calc_kG", "meshless/espim/plate2d_calc_k0.py::calc_k0", "meshless/espim/plate2d_add_k0s_cell_based.py::add_k0s", "meshless/espim/plate2d_add_k0s_cell_based_no_smoothing.py::add_k0s"]}
{"id": "C135", "title": "Distributed loads", "statement": "When a smooth displacement field solves the equations of the first-order shear deformation theory (force and moment equilibrium at every point of the plate) under loads per area p, and on every boundary edge the forces and moments normal to the edge are the edge loads q in all directions that are not supported there, then the consistent nodal loads of p and q (integrals against the linear shape functions) are in balance with the field. So the displacements computed with them converge to the solution of the plate equations: energy, strains and curvatures are off by at most C*h^2 (squared), and refining the mesh of a clamped plate with 'cell-based-no-smoothing' displacements, strains and the work of the loads tend to those of the solution (with 'cell-based' h is replaced by h plus the error of the literal 0.166666666666667).", "quantifier": "every proper planar mesh of smoothly varying positive definite laminates, every solution of the plate equations with continuously differentiable stress resultants, every support, both cell methods, alpha >= 0, both flags; every sequence of refined meshes", "why_tests_cant": "integration by parts over all meshes and fields, limits over sequences of meshes", "anchors": ["meshless/espim/plate2d_calc_k0.py::calc_k0", "meshless/espim/plate2d_add_k0s_cell_based.py::add_k0s", "meshless/espim/plate2d_add_k0s_cell_based_no_smoothing.py::add_k0s"]}
{"id": "C136", "title": "Membrane states and pure bending are exact", "statement": "A plate of one laminate in a state of constant strains and curvatures (tension, shear, pure bending, twisting, combined; w quadratic, no transverse shear), supported at some degrees of freedom by the displacements of the state and loaded along the other boundary edges by the consistent nodal loads of the forces and moments of the state, is solved without any error at the nodes with 'cell-based-no-smoothing': the nodal values of the state are the only solution, on every mesh. With 'cell-based' this holds for the states without rotations; for the others the energy of the error is at most that of the shear strains (error of the literal 0.166666666666667) * (sum of the rotations at the corners).", "quantifier": "every connected proper planar mesh of one positive definite laminate, all constant states, all supports that hold the plate (not only along the boundary), alpha >= 0, both values of maxl_from_area, both flags", "why_tests_cant": "all meshes, states and supports", "anchors": ["meshless/espim/plate2d_calc_k0.py::calc_k0", "meshless/espim/plate2d_add_k0s_cell_based_no_smoothing.py::add_k0s", "meshless/espim/plate2d_add_k0s_cell_based.py::add_k0s"]}
{"id": "C137", "title": "Combined load cases", "statement": "For a supported plate the nodal loads it withstands without buckling (static solution, calc_kG, stiffness plus geometric stiffness positive definite at the free degrees of freedom) form a convex set that contains small loads of every kind and sign: a plate safe under two load cases is safe under every load between them. A load case scaled by t >= 0 is withstood exactly while t is below all positive buckling factors. For combined loads a*f + b*g the first buckling factor obeys Dunkerley's bound 1/c <= a/c1 + b/c2, and adding loads whose membrane forces are nowhere compressive never makes the plate buckle.", "quantifier": "every connected proper planar mesh of positive definite laminates, every support that makes it stable, all loads and combinations, both cell methods, both flags", "why_tests_cant": "all loads, eigenvalue problems of all meshes", "anchors": ["meshless/espim/plate2d_calc_kG.py::calc_kG", "meshless/espim/plate2d_calc_k0.py::calc_k0", "meshless/espim/plate2d_add_k0s_cell_based.py::add_k0s", "meshless/espim/plate2d_add_k0s_cell_based_no_smoothing.py::add_k0s"]}
{"id": "C138", "title": "Plates of several parts and unused nodes", "statement": "In a mesh that consists of several parts - not joined, or joined only at single nodes - and may have nodes in no triangle: nodes of sets without a common triangle are not coupled in the matrices of calc_k0, add_k0s and calc_kG, so that the static solution at one set depends only on the loads and supports there and every buckling mode restricted to one set is zero or a buckling mode for the same factor; the rows and columns of an unused node are zero, so that the supported stiffness matrix is singular unless all five degrees of freedom of the node are supported, and no static solution exists with a load on it. The displacements without strain energy are exactly those that move every edge-connected part as a rigid body (a part of a single triangle may in addition twist about its centroid), and the plate is stable when every part is held at two nodes and every unused node is supported.", "quantifier": "every proper planar mesh of positive definite laminates with any number of parts and unused nodes, both cell methods (the exact set of modes: 'cell-based'), alpha >= 0, all supports, loads and pre-buckling displacements, both flags", "why_tests_cant": "all meshes and parts", "anchors": ["meshless/espim/plate2d_calc_k0.py::calc_k0", "meshless/espim/plate2d_add_k0s_cell_based.py::add_k0s", "meshless/espim/plate2d_add_k0s_cell_based_no_smoothing.py::add_k0s", "meshless/espim/plate2d_calc_kG.py::calc_kG"]}
{"id": "C139", "title": "Small changes have small effects", "statement": "Results depend continuously on the data: when coordinates, laminates and alpha of plates on the same triangles tend to those of a valid plate, the plates are valid near the limit, the entries of the matrices of calc_k0 + add_k0s tend to those of the limit, supports that hold the limit hold the plates near it, and for converging loads the static solutions, the matrices of calc_kG for them and the first positive buckling factor of the complete analysis tend to those of the limit; when the limit has no positive buckling factor, those of the plates near it grow beyond all bounds. No branch of the code makes the results jump.", "quantifier": "every family (over any filter) of plates tending to a connected proper planar mesh of positive definite laminates, both cell methods, alpha >= 0, all supports holding the limit, all loads, both flags", "why_tests_cant": "limits over families of plates", "anchors": ["meshless/espim/plate2d_calc_k0.py::calc_k0", "meshless/espim/plate2d_add_k0s_cell_based.py::add_k0s", "meshless/espim/plate2d_add_k0s_cell_based_no_smoothing.py::add_k0s", "meshless/espim/plate2d_calc_kG.py::calc_kG"]}
{"id": "C140", "title": "Laminate stiffnesses and compliance", "statement": "For a given mesh, thickness and correction factors the matrix of calc_k0 + add_k0s is linear in the stiffnesses A, B, D, E of the laminates: laminates on the line between two laminates give matrices on the line between theirs. The work of given loads is therefore a convex function of the stiffnesses; the displacements are differentiable, their rate of change is the static solution for the load -K'u, and the rate of change of the work is -u^T K' u (one analysis gives all sensitivities). For given membrane forces the first positive buckling factor is a concave function of the stiffnesses.", "quantifier": "all connected proper planar meshes, all pairs of positive definite laminate assignments with equal thickness and correction factors, all points of the line between them, both cell methods, all supports and loads, both flags", "why_tests_cant": "families of plates, derivatives", "anchors": ["meshless/espim/plate2d_calc_k0.py::calc_k0", "meshless/espim/plate2d_add_k0s_cell_based.py::add_k0s", "meshless/espim/plate2d_add_k0s_cell_based_no_smoothing.py::add_k0s", "meshless/espim/plate2d_calc_kG.py::calc_kG"]}
{"id": "C141", "title": "All buckling factors", "statement": "The number of buckling factors of calc_k0 + add_k0s and calc_kG between 0 and a load level, each counted with its independent modes, is well defined, and zero exactly up to the first factor. For given membrane forces: more supports never increase it, and q more supported degrees of freedom lower it by at most q (the factors interlace); stiffer laminates never increase it; constant strain triangles instead of smoothing never increase it (plates of one laminate). So every factor, not only the first, moves in the expected direction. For plates whose coordinates, laminates, alpha and loads tend to those of a given plate it is eventually the number of the limit at every level that is not itself a factor: all factors are continuous.", "quantifier": "all connected proper planar meshes, all positive definite laminates, both cell methods, all supports that hold, all pre-buckling states, all load levels; families over any filter", "why_tests_cant": "all meshes and all factors at once", "anchors": ["meshless/espim/plate2d_calc_k0.py::calc_k0", "meshless/espim/plate2d_add_k0s_cell_based.py::add_k0s", "meshless/espim/plate2d_add_k0s_cell_based_no_smoothing.py::add_k0s", "meshless/espim/plate2d_calc_kG.py::calc_kG"]}
{"id": "C142", "title": "Rounding errors of interpolation and geometry helpers", "statement": "In floating-point arithmetic interpolate_lagrange_2D and interpolate_lagrange_3D return the exact interpolation of nodal values that differ from the given ones by a relative error of about the number of operations times the unit roundoff; hence with distinct nodes the result differs from the interpolating polynomial by at most that error times the sum of the magnitudes of the terms. At a control node the two-dimensional result is the given value exactly (rounded once if it is not a float). Arrays of points give in two dimensions element by element what single points give. area_of_polygon returns the exact area of a polygon with abscissae moved by a relative error of n+3 roundings and raises IndexError in the same cases as in exact arithmetic; unitvec has relative errors of four roundings in each component and in its length; getMid has errors of three roundings of the mean magnitude.", "quantifier": "all rounding rules with unit roundoff below 1, all node lists, points, fields, polygons, non-zero vectors, meshes", "why_tests_cant": "tests compare a few values with a tolerance; the backward error bound and exact reproduction at nodes for all inputs cannot be sampled", "anchors": ["meshless/interpolate.py::interpolate_lagrange_2D", "meshless/interpolate.py::interpolate_lagrange_3D", "meshless/utils.py::area_of_polygon", "meshless/utils.py::unitvec", "meshless/utils.py::getMid"]}
{"id": "C143", "title": "Hinged plates and lines of symmetry: stable and convergent", "statement": "If the supports of a plate leave at most one of the two rotations, and at most one of the two displacements in the plane, free on each edge of the boundary (hinged sides along the axes, lines of symmetry, clamped sides), and every direction is held along lines in x or y, then the static problem has exactly one solution, the stiffness matrix is bounded below by the mean square of the displacements with a constant independent of the mesh, and under refinement the computed displacements, strains and work tend to the solution of the plate equations with the boundary conditions of the supports.", "quantifier": "all reachable meshes of proper plane plates, all sequences of refinements with bounded shape, all smooth laminates and solutions, both cell methods (limits: cell-based-no-smoothing), all supports of this kind", "why_tests_cant": "A test solves a few meshes of one plate; uniform constants and limits concern infinitely many meshes.", "anchors": ["meshless/espim/plate2d_calc_k0.py::calc_k0", "meshless/espim/plate2d_add_k0s_cell_based.py::add_k0s", "meshless/espim/plate2d_add_k0s_cell_based_no_smoothing.py::add_k0s"]}
{"id": "C144", "title": "Conditioning of the equations", "statement": "The equations calc_k0 plus add_k0s give the solver get worse conditioned with refinement no faster than the number of nodes grows: for meshes of even triangles of size h, with supports that guide the displacements (clamped, hinged, lines of symmetry), the ratio of the largest to the smallest value of v K v / v v over displacements compatible with the supports is at most C / h^2, C depending on bounds for the evenness of the mesh, the width of the plate and the laminates, not on the mesh; a relative error of loads, or a relative residual left by the solver, is magnified by no more than this number in the displacements; every diagonal entry of K stays between two positive bounds; and the order 1 / h^2 cannot be improved.", "quantifier": "all plates, meshes with even triangles that tile the plate, guided supports, both cell-based methods; sharpness: all refined sequences without smoothing", "why_tests_cant": "a test can compute the condition number of a few meshes; how it grows, and that nothing worse hides between them, is a statement about all meshes", "anchors": ["meshless/espim/plate2d_calc_k0.py::calc_k0", "meshless/espim/plate2d_add_k0s_cell_based.py::add_k0s", "meshless/espim/plate2d_add_k0s_cell_based_no_smoothing.py::add_k0s"]}
{"id": "C145", "title": "Coordinate systems of a deck", "statement": "The matrices depend on where the nodes of a deck are, not on the coordinate systems their coordinates are written in: two decks with the same triangles and laminates whose nodes have the same positions in the basic system give the same stiffness and geometric stiffness.", "quantifier": "all decks, coordinate systems, laminates", "why_tests_cant": "tests read decks in the basic system only; the centroids come from positions in the basic system while node coordinates are used as written", "anchors": ["meshless/espim/plate2d_calc_k0.py::calc_k0", "meshless/espim/plate2d_calc_kG.py::calc_kG", "meshless/utils.py::getMid"]}
{"id": "C146", "title": "Buckling factors do not vanish under refinement", "statement": "The energy a pre-stress takes from the plate is at most its largest compression N times the squared slopes of the deflection, and the slopes are bounded by the strain energy with a constant C that depends on shape and size bounds of the triangles, laminates and supports only. So every positive buckling factor is at least 1 / (N C) whatever the mesh, the plate loaded below that is stable, and along refinements the first factor stays between a positive bound and the quotients of the plate theory.", "quantifier": "all meshes with bounds for shape and size, laminates, supports that control the rotations, pre-stress displacements; both cell methods (refinements: cell-based-no-smoothing, guided supports)", "why_tests_cant": "a bound over all meshes is not a finite computation; tests compare one factor of one mesh", "anchors": ["meshless/espim/plate2d_calc_k0.py::calc_k0", "meshless/espim/plate2d_calc_kG.py::calc_kG", "meshless/espim/plate2d_add_k0s_cell_based.py::add_k0s", "meshless/espim/plate2d_add_k0s_cell_based_no_smoothing.py::add_k0s"]}
{"id": "C147", "title": "Computed buckling factors tend to those of the plate theory", "statement": "If a smooth field F solves the buckling equations of first-order shear-deformation theory with factor lam for the membrane forces of a state D, with supports and free edges met on the boundary, then its nodal values nearly solve the eigenproblem K x = -lam KG x assembled on a mesh: the residual is at most a constant times the triangle size in the norm dual to the energy. So there is a computed buckling factor b with |1 - lam/b| at most a constant times the triangle size over the energy norm of F, and along refinements computed factors tend to lam; this holds with KG made of the nodal values of D and with KG made of displacements computed from a load case whose solution is D. lam is the energy of F over the work of the membrane forces on its slopes.", "quantifier": "all smooth modes, laminate fields, plates and refinements with bounds for shape, laminate and supports; no-smoothing shear for the limits, all cell-based methods for the bounds", "why_tests_cant": "needs modes of the continuous problem and meshes of every size; a test compares one mesh with one number", "anchors": ["meshless/espim/plate2d_calc_kG.py::calc_kG", "meshless/espim/plate2d_calc_k0.py::calc_k0", "meshless/espim/plate2d_add_k0s_cell_based_no_smoothing.py::add_k0s"]}
{"id": "C148", "title": "Computed buckling modes and modes of the plate theory", "statement": "The nodal values of a smooth buckling mode of the plate theory with factor lam are close in energy to a combination of computed modes whose factors lie within a relative distance delta of lam: the energy of the difference is at most a constant times (triangle size / delta)^2. If k independent smooth modes have the same factor lam, then on fine meshes at least k computed factors with mutually orthogonal modes are close to lam and tend to it under refinement, for the nodal values of the pre-stress and for the pre-stress computed from its load case: multiple factors are found with their multiplicity.", "quantifier": "all smooth modes, multiplicities, laminate fields, plates and refinements with bounds for shape, laminate and supports; no-smoothing shear for the limits, all cell-based methods for the bounds", "why_tests_cant": "needs modes of the continuous problem, all multiplicities and meshes of every size", "anchors": ["meshless/espim/plate2d_calc_kG.py::calc_kG", "meshless/espim/plate2d_calc_k0.py::calc_k0", "meshless/espim/plate2d_add_k0s_cell_based_no_smoothing.py::add_k0s"]}
{"id": "C149", "title": "Floating-point results in units differing by powers of two", "statement": "In float64 (no overflow or underflow) the same mesh, laminates and displacement vector given in units of length and force that differ by powers of two give, in calc_k0, add_k0s (all methods) and calc_kG, the same error or the same matrix with every entry multiplied by the exact unit factor: not one rounding differs, so results in millimetres/1024 or metres carry the same digits. The same holds for the plate turned by half a turn about z, except for add_k0s with 'edge-based'. For factors that are not powers of two (1/10) rounding does not commute with the factor.", "quantifier": "all meshes (also non-planar, also half-prepared), laminates, displacement vectors, powers of two and rounding rules that commute with the factors", "why_tests_cant": "equality of every rounding on every mesh cannot be sampled; one branch on a rounded sign or length would break it", "anchors": ["meshless/espim/plate2d_calc_k0.py::calc_k0", "meshless/espim/plate2d_add_k0s_cell_based.py::add_k0s", "meshless/espim/plate2d_add_k0s_cell_based_no_smoothing.py::add_k0s", "meshless/espim/plate2d_add_k0s_edge_based.py::add_k0s", "meshless/espim/plate2d_calc_kG.py::calc_kG"]}
{"id": "C150", "title": "No overflow, underflow or NaN in fine and wide formats", "statement": "With infinities, NaN, a largest finite number and gradual underflow in the arithmetic (so float64 as it is, not only its rounding): for a planar, proper mesh there are constants such that in every floating-point format whose unit roundoff plus underflow error is below the first and whose largest number is above the second, calc_k0, add_k0s (all methods, alpha >= 0) and calc_kG return matrices in which every entry is a finite number, at most a constant times (roundoff + underflow error) from the exact one. No intermediate result becomes infinite or NaN, no comparison is made with NaN.", "quantifier": "all planar proper meshes reached by scripts, laminates, displacement vectors, formats fine and wide enough for the mesh", "why_tests_cant": "special values appear on rare meshes and formats; tests see a few", "anchors": ["meshless/espim/plate2d_calc_k0.py::calc_k0", "meshless/espim/plate2d_add_k0s_cell_based.py::add_k0s", "meshless/espim/plate2d_add_k0s_cell_based_no_smoothing.py::add_k0s", "meshless/espim/plate2d_add_k0s_edge_based.py::add_k0s", "meshless/espim/plate2d_calc_kG.py::calc_kG", "meshless/utils.py::area_of_polygon"]}
{"id": "C151", "title": "The number format does not decide whether the functions fail", "statement": "In whatever floating-point format the numbers are kept (any roundoff, any underflow threshold, any largest number, overflow to infinity, NaN), calc_k0, calc_kG and add_k0s end exactly as in real arithmetic: they raise the same exception, or all return, with matrices of the same size. Overflow, underflow, division by zero and NaN never raise and never hide an exception", "quantifier": "every reachable mesh, format, property source, displacement vector, method, alpha, maxl choice", "why_tests_cant": "a test runs in one format, binary64, on one mesh", "anchors": ["meshless/espim/plate2d_calc_k0.py::calc_k0", "meshless/espim/plate2d_calc_kG.py::calc_kG", "meshless/espim/plate2d_add_k0s_cell_based.py::add_k0s", "meshless/espim/plate2d_add_k0s_cell_based_no_smoothing.py::add_k0s"]}
{"id": "C152", "title": "A smoothing domain without usable area ends silently in NaN", "statement": "If the computed area of the smoothing domain of one edge is 0, infinite or NaN, calc_k0 still returns, and all entries of k0 for u, v, rx, ry between nodes at that edge are NaN, as are those of w-w in kG; add_k0s does not repair them. For an edge with one triangle the rows and columns of the last node of the mesh (k0) and of the first node (kG) are NaN too, even if that node is nowhere near. Flat triangles on a coordinate axis have this in every format", "quantifier": "every reachable proper mesh, format, edge, property source, displacement vector", "why_tests_cant": "tests use well-shaped triangles; the NaN shows up only in a later solve", "anchors": ["meshless/espim/plate2d_calc_k0.py::calc_k0", "meshless/espim/plate2d_calc_kG.py::calc_kG", "meshless/utils.py::area_of_polygon", "meshless/espim/plate2d_add_k0s_cell_based.py::add_k0s", "meshless/espim/plate2d_add_k0s_cell_based_no_smoothing.py::add_k0s"]}
{"id": "C153", "title": "How accurate k0 is in double precision", "statement": "On a flat mesh whose triangles are not too thin (area at least l^2/4, where l bounds the coordinate differences between corners of the triangles at an edge) and not too far from the origin (coordinates up to 8 l, 64 l or 1000 l), calc_k0 in double precision returns finite numbers only, and an entry to which n edges contribute is within p*8n(E + 24576n + 1)/2^53 of the exact one, with p the largest entry of A, B or D behind it and E = 4.7e8, 2.6e10 or 6.1e12. For area at least l^2/20 and coordinates up to 64 l the numbers are E = 3.2e12 and 614400 in place of 24576", "quantifier": "every reachable proper planar mesh with at most 2^38 edges, lengths l from 2^-100 to 2^100, laminates with entries up to bounds from 2^-100 to 2^100, property source, and every format as fine and as wide as binary64", "why_tests_cant": "tests compare with a tolerance picked by hand; no run in double precision shows the exact value, and none covers all meshes", "anchors": ["meshless/espim/plate2d_calc_k0.py::calc_k0", "meshless/utils.py::area_of_polygon"]}
{"id": "C154", "title": "Symmetry, rigid motions and energy of k0 in double precision", "statement": "Where C153 bounds the errors of the entries of k0 by e_ij, the matrix computed in double precision is symmetric up to 2 e_ij (entries above and below the diagonal are computed separately), an in-plane rigid motion with uniform rotations d causes a force of at most sum_j e_ij |d_j| in row i, the energy of any two displacement vectors is that of the smoothed strains up to sum_ij e_ij |v_i||u_j|, and with laminates of non-negative energy d^T k0 d is at least -sum_i (sum_j e_ij) d_i^2. The products with d are taken exactly", "quantifier": "every mesh, laminate and format of C153, all displacement vectors", "why_tests_cant": "a test sees the asymmetry or a slightly negative eigenvalue of one mesh and cannot tell whether it is as small as it has to be on others", "anchors": ["meshless/espim/plate2d_calc_k0.py::calc_k0"]}
{"id": "C155", "title": "Static and buckling analysis with the special values of a format", "statement": "With infinities, NaN, a largest finite number and gradual underflow in the arithmetic: for a stable supported plate there are constants such that in every format fine and wide enough for it the stiffness matrix from calc_k0 + add_k0s and the geometric stiffness matrix from calc_kG of a computed static solution have finite entries only; the static problem of the computed matrix has exactly one solution, and every vector that solves it up to the roundoff is within a constant times (roundoff + underflow error) of the exact solution; so are the entries of the geometric stiffness matrix. Every factor of bounded size (also a complex one) and mode that satisfy the computed buckling equations up to the roundoff are that close to an exact, real factor and one of its modes, every exact factor and mode satisfies the computed equations up to such a residual, and below (above) the first positive factor by more than such a distance the computed matrix of the loaded plate is (is not) positive definite.", "quantifier": "every stable supported plate, all loads, every computed result of small residual, every format fine and wide enough, cell methods (static solution and pre-stress: all three methods), alpha >= 0, both flags; factors and load levels up to any bound fixed beforehand", "why_tests_cant": "tests run in one format on a few plates; that nothing overflows or turns into NaN on the way from the mesh to the factor for any plate cannot be tried out", "anchors": ["meshless/espim/plate2d_calc_k0.py::calc_k0", "meshless/espim/plate2d_add_k0s_cell_based.py::add_k0s", "meshless/espim/plate2d_add_k0s_cell_based_no_smoothing.py::add_k0s", "meshless/espim/plate2d_add_k0s_edge_based.py::add_k0s", "meshless/espim/plate2d_calc_kG.py::calc_kG"]}
{"id": "C156", "title": "Explicit rounding error of add_k0s without smoothing in double precision", "statement": "In float64 (infinities, NaN, gradual underflow included) and in every format at least as fine and as wide, add_k0s with method 'cell-based-no-smoothing' applied to a matrix of finite numbers returns a matrix of finite numbers. Let every triangle have an area of at least l^2/4 for a length l <= L that bounds its extent in x and y, shear factors up to 1, shear moduli up to g and a thickness, moduli and lengths between 2^-100 and 2^100. Then, with P >= g (one more factor L for each rotation among the two freedoms), entries up to P k with errors up to P e / 2^53 before the call and n triangles at both nodes, the entries after are up to P (k + 8n) and their errors up to P (2e + 2n (40000 + k + 8n + 1)) / 2^53; with areas of l^2/20: 40 for 8 and 6e7 for 40000. Entries of the freedoms u and v get no increments (n = 0). With the bounds of C153 for calc_k0 this bounds every entry of the complete stiffness matrix of calc_k0 followed by add_k0s.", "quantifier": "every mesh on which calc_k0 has returned, nodes in one plane, triangles as described, alpha = 0 or between 2^-100 and 2^100, both flags, every start matrix, every format as described; up to 2^40 triangles", "why_tests_cant": "an error bound is about all inputs at once; a test sees the error of the few matrices it computes and needs a reference of higher precision", "anchors": ["meshless/espim/plate2d_add_k0s_cell_based_no_smoothing.py::add_k0s", "meshless/espim/plate2d_add_k0s.py::add_k0s", "meshless/espim/plate2d_calc_k0.py::calc_k0"]}
{"id": "C157", "title": "Explicit rounding error of the cell-based add_k0s in double precision", "statement": "As C156 for method 'cell-based': in float64 and in every format at least as fine and as wide, add_k0s applied to a matrix of finite numbers returns a matrix of finite numbers. Let every triangle have an area of at least l^2/4 for a length l <= L that bounds its extent in x and y, node coordinates up to G l, shear factors up to 1, shear moduli up to g and a thickness, moduli and lengths between 2^-100 and 2^100. Then, with P >= g (one more factor L for each rotation among the two freedoms), entries up to P k with errors up to P e / 2^53 before the call and n triangles at both nodes, the entries after are up to P (k + 512n) and their errors up to P (2e + 2n (E + k + 512n + 1)) / 2^53 with E = 1.5e7 for G = 8, E = 6e8 for G = 64, E = 1.5e11 for G = 1000; with areas of l^2/20 and G = 64: 64000 for 512 and E = 4e12. With the bounds of C153 for calc_k0 this bounds every entry of the complete stiffness matrix of calc_k0 followed by add_k0s.", "quantifier": "every mesh on which calc_k0 has returned, nodes in one plane, triangles as described, alpha = 0 or between 2^-100 and 2^100, both flags, every start matrix, every format as described; up to 2^40 triangles", "why_tests_cant": "an error bound is about all inputs at once; the errors grow with the distance of the mesh from the origin, which a test with one mesh does not show", "anchors": ["meshless/espim/plate2d_add_k0s_cell_based.py::add_k0s", "meshless/espim/plate2d_add_k0s.py::add_k0s", "meshless/espim/plate2d_calc_k0.py::calc_k0"]}
{"id": "C158", "title": "The complete stiffness matrix in double precision: symmetry, rigid motions, energy", "statement": "In float64 and in every format at least as fine and as wide, calc_k0 followed by add_k0s with 'cell-based' or 'cell-based-no-smoothing' returns a matrix of finite numbers, within a bound e[p, q] of the exact matrix in every entry (the bounds of C156 and C157). The returned matrix is symmetric up to 2 e[p, q]. A rigid motion of the plate (translations and rotation in the plane, uniform phix and phiy with the deflection that belongs to them) causes forces no larger than sum_q e[p, q] |z[q]|. The energy v K u differs from the energy of membrane, bending and transverse shear of the strains by at most sum e[p, q] |v[p]| |u[q]|, and z K z is at least -sum_p (sum_q e[p, q]) z[p]^2.", "quantifier": "every connected plate of valid triangles in one plane with positive stiffness, alpha >= 0, both flags, both cell methods, geometry and stiffness as in C156 and C157", "why_tests_cant": "a comparison with a tolerance in a test says nothing about other meshes; which tolerance is right depends on the number of edges and triangles at the nodes and on the size of the stiffness", "anchors": ["meshless/espim/plate2d_calc_k0.py::calc_k0", "meshless/espim/plate2d_add_k0s_cell_based.py::add_k0s", "meshless/espim/plate2d_add_k0s_cell_based_no_smoothing.py::add_k0s", "meshless/espim/plate2d_add_k0s.py::add_k0s"]}
{"id": "C159", "title": "The static solution in double precision, with explicit constants", "statement": "Let every node be a corner of at most v triangles, b edges have one triangle, and the entries of the complete stiffness matrix K be computed within the bounds of C156 or C157 with P at most p. Then the errors in a row of the computed matrix sum up to at most D = 5 p (64 (3v + b) (E0 + 4 (3v + b) M0 + 1) + 6v (E + 4 (3v + b) M0 + v M + 1)) / 2^53; b enters since calc_k0 writes at the last node of the mesh for every edge with one triangle. If the energy of the supported displacements is at least c times their squared length, it is at least c - D times with the computed matrix. If D < c, the equations of the computed matrix have one solution for every load. A solution d' of them up to a residual r satisfies (c - D) |d' - d| <= D |d| + |r| with the exact solution d. On meshes with triangles of even size h, guided at the supports, c is h^2 / C with a factor C that depends on the plate and the quality of the meshes only.", "quantifier": "every connected plate of valid triangles as in C158, every support for which the exact energy is positive, every load and residual, every format at least as fine and as wide as float64", "why_tests_cant": "tests compare displacements with a loose tolerance; how far rounding moves them depends on the smallest energy of the supported plate, which falls with the square of the mesh size", "anchors": ["meshless/espim/plate2d_calc_k0.py::calc_k0", "meshless/espim/plate2d_add_k0s_cell_based.py::add_k0s", "meshless/espim/plate2d_add_k0s_cell_based_no_smoothing.py::add_k0s"]}
{"id": "C160", "title": "Rounding errors of calc_kG in double precision, with explicit constants", "statement": "Let the laminates have A up to a and B up to b, and let the triangles around every edge fit a length l: no wider than l, of area at least l^2 / 4, with coordinates up to G l. Let the displacements handed to calc_kG be up to n l / (1024 a) in u and v and n l / (1024 b) in phix and phiy, so that the membrane forces are of the order of n; w does not matter. In float64 and in every format at least as fine and as wide, calc_kG returns a matrix of finite numbers of the exact shape. Entries for other degrees of freedom than the two deflections w are exactly zero. An entry between the deflections of two nodes that c edges contribute to is within n 8c (E + 4c M + 1) / 2^53 of the exact entry, with M = 12288 and E = 990000000 for G = 8, 54000000000 for G = 64, 13000000000000 for G = 1000. If the displacements are themselves off, by up to e l / (1024 a) and e l / (1024 b), the distance to the matrix of the intended displacements grows by at most 4c M e.", "quantifier": "every plate of valid triangles in one plane with properties of that size, all displacements of that size, both flags, a, b, n, l, e between 2^-100 and 2^100, up to 2^38 edges, every format at least as fine and as wide as float64", "why_tests_cant": "tests run one mesh in one format; how many digits of kG are right depends on the coordinates of the nodes relative to the size of the triangles and on how many edges meet, and no test varies these", "anchors": ["meshless/espim/plate2d_calc_kG.py::calc_kG", "meshless/espim/plate2d_calc_k0.py::calc_k0"]}
{"id": "C161", "title": "Buckling factors in double precision, with explicit constants", "statement": "Let the complete stiffness matrix K and the matrix kG be computed within the bounds of C158 and C160, D be the row bound of C159, and the energy of the supported displacements be at least c times their squared length. With E, M, n, e of C160, at most v triangles at a node and b edges with one triangle, the errors in a row of the computed kG sum up to at most H = 4 (3v + b) (8 n (E + 4 (3v + b) M + 1) / 2^53 + 4 M e). Let l, x be a factor and mode of the computed matrices, real or complex, up to a residual of r |x|. If D + |l| H + r < c, there is an exact buckling factor l' with c |l - l'| <= |l'| (D + |l| H + r). The limit of stability is kept as well: with c1 the first exact factor, the computed K + t kG is positive definite for every load level t >= 0 with t / c1 + (D + t H) / c < 1, and if it is nowhere negative then t / c1 <= 1 + (D + t H) / c. The displacement error e that enters H follows from the static solution: a residual s of the computed equations for d gives differences within e l / (1024 a) and e l / (1024 b) if 1024 max(a, b) (D |d| + |s|) <= e l (c - D).", "quantifier": "every plate as in C158 and C160, every support for which the exact energy is positive, all displacements of the stated size, all factors and modes of the computed matrices up to a residual, every format at least as fine and as wide as float64", "why_tests_cant": "tests compare one buckling load with a tolerance of percents; whether every factor of the unsymmetric, rounded matrices (complex ones included) is near a true one, and none of them is an artefact of rounding, cannot be seen from one run", "anchors": ["meshless/espim/plate2d_calc_k0.py::calc_k0", "meshless/espim/plate2d_add_k0s_cell_based.py::add_k0s", "meshless/espim/plate2d_add_k0s_cell_based_no_smoothing.py::add_k0s", "meshless/espim/plate2d_calc_kG.py::calc_kG"]}
{"id": "C162", "title": "Exponents of pow(x, n) in pow2mul", "statement": "Let a text hold no '**' and let pow(v, e) be its first call of pow, with no comma in v and e and no further 'pow' inside. If e is not a whole number as Python's int reads it (digits, perhaps with single underscores between them, at most one sign in front, blanks around), pow2mul raises ValueError whatever follows. If it is a whole number n and there is no other call, the call becomes '(' + n copies of '(v)', without the spaces, joined by '*' + ')' and nothing else changes. In particular a negative exponent does not raise: pow(x, -2) becomes '()'.", "quantifier": "all such texts, all arguments and exponents", "why_tests_cant": "the exponents that int accepts are an infinite language, and a test with pow(x, 2) shows neither the silent loss for negative exponents nor which texts raise", "anchors": ["meshless/dev/sympytools.py::pow2mul"]}
