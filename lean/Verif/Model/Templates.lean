import Verif.Model.Text

/-!
# The templates of the BLAS interface, verbatim

Generated by tools/gen_templates.py from the `.pre` files of /repo.
-/

namespace BB.Gen

/-- /repo/include/BlasBooster/BlasInterface/Blas.h.pre:1-21 -/
def blasH : Text := text r##"#pragma once

#include <complex>

extern "C" {

{% for function in functions_blas %}
{{ function.return_value }} {{ function.name }}_(
    {%- for argument in function.argument_list -%}
    {{ argument }}*{{ ", " if not loop.last }}
    {%- endfor %});
{% endfor %}

{% for function in functions_blas_zdot_no_return %}
{{ function.return_value }} {{ function.name }}_(
    {%- for argument in function.argument_list -%}
    {{ argument }}*{{ ", " if not loop.last }}
    {%- endfor %});
{% endfor %}

} // extern "C"
"##

/-- /repo/include/BlasBooster/BlasInterface/BlasInterface_IntelMKL.h.pre:1-48 -/
def mklH : Text := text r##"#pragma once

#include "BlasInterface.h"
#include "FunctionTypes.h"

namespace BlasBooster {

struct IntelMKL {};

void IntelMKL_set_num_threads(int nbThreads);

{% for function in functions_blas %}
template <>
struct BlasInterface <IntelMKL, {{ function.name }}>
{
    {{ function.return_value }} operator() (
    {%- for argument in function.argument_list -%}
    {{ argument }}* v{{loop.index0}}{{ ", " if not loop.last }}
    {%- endfor %}) const;
};

{% endfor -%}

{% for function in functions_blas_zdot %}
template <>
struct BlasInterface <IntelMKL, {{ function.name }}>
{
    {{ function.return_value }} operator() (
    {%- for argument in function.argument_list -%}
    {{ argument }}* v{{loop.index0}}{{ ", " if not loop.last }}
    {%- endfor %}) const;
};

{% endfor -%}

{% for function in functions_spblas %}
template <>
struct BlasInterface <IntelMKL, {{ function.name }}>
{
    {{ function.return_value }} operator() (
    {%- for argument in function.argument_list -%}
    {{ argument }}* v{{loop.index0}}{{ ", " if not loop.last }}
    {%- endfor %}) const;
};

{% endfor -%}

} // namespace BlasBooster
"##

/-- /repo/include/BlasBooster/BlasInterface/BlasInterface_OpenBLAS.h.pre:1-36 -/
def openH : Text := text r##"#pragma once

#include "BlasInterface.h"
#include "FunctionTypes.h"

namespace BlasBooster {

struct OpenBLAS {};

void OpenBLAS_set_num_threads(int nbThreads);

{% for function in functions_blas %}
template <>
struct BlasInterface <OpenBLAS, {{ function.name }}>
{
    {{ function.return_value }} operator() (
    {%- for argument in function.argument_list -%}
    {{ argument }}* v{{loop.index0}}{{ ", " if not loop.last }}
    {%- endfor %}) const;
};

{% endfor -%}

{% for function in functions_blas_zdot %}
template <>
struct BlasInterface <OpenBLAS, {{ function.name }}>
{
    {{ function.return_value }} operator() (
    {%- for argument in function.argument_list -%}
    {{ argument }}* v{{loop.index0}}{{ ", " if not loop.last }}
    {%- endfor %}) const;
};

{% endfor -%}

} // namespace BlasBooster
"##

/-- /repo/include/BlasBooster/BlasInterface/FunctionTypes.h.pre:1-30 -/
def typesH : Text := text r##"#pragma once

#include <string>

namespace BlasBooster {

{% for function in functions_blas %}
struct {{ function.name }}
{
    static std::string name() { return "{{ function.name }}"; }
};

{% endfor -%}
{% for function in functions_blas_zdot %}
struct {{ function.name }}
{
    static std::string name() { return "{{ function.name }}"; }
};

{% endfor -%}

{% for function in functions_spblas %}
struct {{ function.name }}
{
    static std::string name() { return "{{ function.name }}"; }
};

{% endfor -%}

} // namespace BlasBooster
"##

/-- /repo/include/BlasBooster/BlasInterface/IntelMKL_SpBlas.h.pre:1-12 -/
def spH : Text := text r##"#pragma once

extern "C" {

{% for function in functions_spblas %}
{{ function.return_value }} mkl_{{ function.name }}(
    {%- for argument in function.argument_list -%}
    {{ argument }}*{{ ", " if not loop.last }}
    {%- endfor %});
{% endfor %}

} // extern "C"
"##

/-- /repo/src/Interfaces/IntelMKL/BlasInterface_IntelMKL.cpp.pre:1-76 -/
def mklCpp : Text := text r##"#include "BlasBooster/BlasInterface/Blas.h"
#include "BlasBooster/BlasInterface/IntelMKL_SpBlas.h"
#include "BlasBooster/BlasInterface/BlasInterface_IntelMKL.h"

// The upper case name must be used, since the lower case one is
// only a macro defined in mkl_service.h and results in a seg-fault.
extern "C" void MKL_Set_Num_Threads(int nbThreads);

namespace BlasBooster {

void IntelMKL_set_num_threads(int nbThreads)
{
	::MKL_Set_Num_Threads(nbThreads);
}

{% for function in functions_blas %}
{{ function.return_value }} BlasInterface <IntelMKL, {{ function.name }}>::operator() (
    {%+ for argument in function.argument_list -%}
    {{ argument }}* v{{loop.index0}}{{ ", " if not loop.last }}
    {%- endfor %}) const
{
    return ::{{ function.name }}_(
        {%- for argument in function.argument_list -%}
            v{{loop.index0}}{{ ", " if not loop.last }}
        {%- endfor %});
}

{% endfor -%}

{% for function in functions_spblas %}
{{ function.return_value }} BlasInterface <IntelMKL, {{ function.name }}>::operator() (
    {%+ for argument in function.argument_list -%}
    {{ argument }}* v{{loop.index0}}{{ ", " if not loop.last }}
    {%- endfor %}) const
{
    return ::mkl_{{ function.name }}(
        {%- for argument in function.argument_list -%}
            v{{loop.index0}}{{ ", " if not loop.last }}
        {%- endfor %});
}

{% endfor -%}

std::complex<float> BlasInterface<IntelMKL, cdotc>::operator() (
	const int *v1, const std::complex<float> *v2, const int *v3, const std::complex<float> *v4, const int *v5 ) const
{
	std::complex<float> result;
	::cdotc_(&result,v1,v2,v3,v4,v5);
	return result;
}

std::complex<float> BlasInterface<IntelMKL, cdotu>::operator() (
	const int *v1, const std::complex<float> *v2, const int *v3, const std::complex<float> *v4, const int *v5 ) const
{
	std::complex<float> result;
	::cdotu_(&result,v1,v2,v3,v4,v5);
	return result;
}

std::complex<double> BlasInterface<IntelMKL, zdotc>::operator() (
	const int *v1, const std::complex<double> *v2, const int *v3, const std::complex<double> *v4, const int *v5 ) const
{
	std::complex<double> result;
	::zdotc_(&result,v1,v2,v3,v4,v5);
	return result;
}

std::complex<double> BlasInterface<IntelMKL, zdotu>::operator() (
	const int *v1, const std::complex<double> *v2, const int *v3, const std::complex<double> *v4, const int *v5 ) const
{
	std::complex<double> result;
	::zdotu_(&result,v1,v2,v3,v4,v5);
	return result;
}

} // namespace BlasBooster
"##

/-- /repo/src/Interfaces/OpenBLAS/BlasInterface_OpenBLAS.cpp.pre:1-59 -/
def openCpp : Text := text r##"#include "BlasBooster/BlasInterface/Blas.h"
#include "BlasBooster/BlasInterface/BlasInterface_OpenBLAS.h"

extern "C" void openblas_set_num_threads(int nbThreads);

namespace BlasBooster {

void OpenBLAS_set_num_threads(int nbThreads)
{
    ::openblas_set_num_threads(nbThreads);
}

{% for function in functions_blas %}
{{ function.return_value }} BlasInterface <OpenBLAS, {{ function.name }}>::operator() (
    {%+ for argument in function.argument_list -%}
    {{ argument }}* v{{loop.index0}}{{ ", " if not loop.last }}
    {%- endfor %}) const
{
    return ::{{ function.name }}_(
        {%- for argument in function.argument_list -%}
            v{{loop.index0}}{{ ", " if not loop.last }}
        {%- endfor %});
}

{% endfor -%}

std::complex<float> BlasInterface < OpenBLAS, cdotc >::operator() (
    const int *v1, const std::complex<float> *v2, const int *v3, const std::complex<float> *v4, const int *v5) const
{
    std::complex<float> result;
    ::cdotc_(&result,v1,v2,v3,v4,v5);
    return result;
}

std::complex<float> BlasInterface < OpenBLAS, cdotu >::operator() (
    const int *v1, const std::complex<float> *v2, const int *v3, const std::complex<float> *v4, const int *v5) const
{
    std::complex<float> result;
    ::cdotu_(&result,v1,v2,v3,v4,v5);
    return result;
}

std::complex<double> BlasInterface < OpenBLAS, zdotc >::operator() (
    const int *v1, const std::complex<double> *v2, const int *v3, const std::complex<double> *v4, const int *v5) const
{
    std::complex<double> result;
    ::zdotc_(&result,v1,v2,v3,v4,v5);
    return result;
}

std::complex<double> BlasInterface < OpenBLAS, zdotu >::operator() (
    const int *v1, const std::complex<double> *v2, const int *v3, const std::complex<double> *v4, const int *v5) const
{
    std::complex<double> result;
    ::zdotu_(&result,v1,v2,v3,v4,v5);
    return result;
}

} // namespace BlasBooster
"##

/-- /repo/src/Interfaces/IntelMKL/BlasInterface_IntelMKL.cpp:1-18, the beginning of the committed file. -/
def mklCommitted : Text := text r##"#include "BlasBooster/BlasInterface/Blas.h"
#include "BlasBooster/BlasInterface/IntelMKL_SpBlas.h"
#include "BlasBooster/BlasInterface/BlasInterface_IntelMKL.h"

// The upper case name must be used, since the lower case one is
// only a macro defined in mkl_service.h and results in a seg-fault.
extern "C" {
    void MKL_Set_Dynamic (int flag);
    void MKL_Set_Num_Threads(int nbThreads);
}

namespace BlasBooster {

void IntelMKL_set_num_threads(int nbThreads)
{
    ::MKL_Set_Dynamic(0);
    ::MKL_Set_Num_Threads(nbThreads);
}"##

end BB.Gen
